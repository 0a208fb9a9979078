import Verif.Model.Visual
import Verif.Lemmas.RealFns
import Verif.Lemmas.Ravel
import Verif.Props.SimIO
import Verif.Props.SdfNormal
import Mathlib.Analysis.SpecialFunctions.Pow.Real
import Mathlib.Tactic.FieldSimp
import Mathlib.Tactic.LinearCombination
import Mathlib.Tactic.Positivity

/-!
# C95 – C100: what is drawn

Specification side: the sample points of a box, vertices placed by linear interpolation on the edges of the sampling grid,
areas and volumes of discs and balls, and the last call that wrote a file.
-/

namespace Hydrax

open Spec

/-! ### C95: the sampled box -/

section
variable {K : Type*} [Field K] [LinearOrder K] [IsStrictOrderedRing K] [FloorRing K] {m : ℕ}

/-- **C95** (partial): a box that lies on the far side of the origin on every axis (`start + end ≥ 0`). The sampling
succeeds with `resolution` samples along the longest axis and at most that along the others; the first sample is the lower
corner; every point of the box is less than one step above a sample on every axis; and where the step is at most a
twentieth of `start + end`, between two samples. Missing: the last two for other boxes, which is false
(`sample_misses_end`, `sample_backwards`, `sample_misses_flat_top`). -/
theorem sample_covers_partial (start stop : Fin (m + 1) → K) (res : ℕ) (hres : 0 < res) (hlt : ∀ a, start a < stop a)
    (hsum : ∀ a, 0 ≤ start a + stop a) :
    ∃ n, sampleShape start stop res = .ok n ∧ 0 < sampleStep start stop res ∧
      (∀ a, 1 ≤ n a ∧ n a ≤ res) ∧ (∃ a, n a = res) ∧
      worldCoord start stop res (fun _ => 0) = start ∧
      ∀ x : Fin (m + 1) → K, (∀ a, start a ≤ x a ∧ x a < stop a) →
        ∃ i : Fin (m + 1) → ℕ, ∀ a, i a < n a ∧ worldCoord start stop res (fun b => (i b : K)) a ≤ x a ∧
          x a < worldCoord start stop res (fun b => (i b : K)) a + sampleStep start stop res ∧
          (sampleStep start stop res ≤ (start a + stop a) / 20 → i a + 1 < n a) := by
  have hr : (0 : K) < res := by exact_mod_cast hres
  set h := sampleStep start stop res with hh
  have hext : ∀ a, sampleExtent start stop a = (stop a - start a) + (start a + stop a) / 20 := fun a => by
    unfold sampleExtent; ring
  have hpos : ∀ a, 0 < sampleExtent start stop a := fun a => by
    rw [hext]
    have := hsum a
    have := hlt a
    have : 0 ≤ (start a + stop a) / 20 := by positivity
    linarith
  have hmax : 0 < maxv (sampleExtent start stop) := (hpos 0).trans_le (maxv_ge _ 0)
  have h0 : 0 < h := div_pos hmax hr
  have hres' : (res : K) * h = maxv (sampleExtent start stop) := by
    rw [hh, sampleStep]; field_simp
  have hcnt : ∀ a, 0 < ⌈sampleExtent start stop a / h⌉ := fun a => Int.ceil_pos.mpr (div_pos (hpos a) h0)
  refine ⟨fun a => ⌈sampleExtent start stop a / h⌉.toNat, ?_, h0, fun a => ⟨?_, ?_⟩, ?_, ?_, ?_⟩
  · rw [sampleShape, if_neg]
    rintro (e | ⟨a, ha⟩)
    · exact h0.ne' e
    · exact absurd ha (not_lt.mpr (hcnt a).le)
  · have := hcnt a
    dsimp only
    omega
  · rw [Int.toNat_le, Int.ceil_le]
    rw [div_le_iff₀ h0]
    push_cast
    rw [hres']
    exact maxv_ge _ a
  · obtain ⟨a, ha⟩ := exists_maxv (sampleExtent start stop)
    refine ⟨a, ?_⟩
    have : sampleExtent start stop a / h = (res : K) := by
      rw [div_eq_iff h0.ne', hres', ha]
    beta_reduce
    rw [this]
    simp
  · funext a
    simp [worldCoord]
  · intro x hx
    refine ⟨fun a => ⌊(x a - start a) / h⌋.toNat, fun a => ?_⟩
    have hq0 : 0 ≤ (x a - start a) / h := div_nonneg (sub_nonneg.mpr (hx a).1) h0.le
    have hf0 : 0 ≤ ⌊(x a - start a) / h⌋ := Int.floor_nonneg.mpr hq0
    have hcast : ((⌊(x a - start a) / h⌋.toNat : ℕ) : K) = (⌊(x a - start a) / h⌋ : K) := by
      have := Int.toNat_of_nonneg hf0
      exact_mod_cast this
    have hle : (⌊(x a - start a) / h⌋ : K) * h ≤ x a - start a := by
      rw [← le_div_iff₀ h0]; exact Int.floor_le _
    have hltf : x a - start a < ((⌊(x a - start a) / h⌋ : K) + 1) * h := by
      rw [← div_lt_iff₀ h0]; exact Int.lt_floor_add_one _
    have hce : sampleExtent start stop a ≤ (⌈sampleExtent start stop a / h⌉ : K) * h := by
      rw [← div_le_iff₀ h0]; exact Int.le_ceil _
    have hsum' : 0 ≤ (start a + stop a) / 20 := div_nonneg (hsum a) (by norm_num)
    have h3 := hext a
    have h4 := (hx a).2
    refine ⟨?_, ?_, ?_, fun hstep => ?_⟩
    · have : (⌊(x a - start a) / h⌋ : K) * h < (⌈sampleExtent start stop a / h⌉ : K) * h := by linarith
      have : ⌊(x a - start a) / h⌋ < ⌈sampleExtent start stop a / h⌉ := by
        exact_mod_cast lt_of_mul_lt_mul_right this h0.le
      dsimp only
      omega
    · rw [worldCoord, ← hh, hcast]
      linarith
    · rw [worldCoord, ← hh, hcast]
      linarith
    · have : ((⌊(x a - start a) / h⌋ : K) + 1) * h < (⌈sampleExtent start stop a / h⌉ : K) * h := by linarith
      have : ⌊(x a - start a) / h⌋ + 1 < ⌈sampleExtent start stop a / h⌉ := by
        exact_mod_cast lt_of_mul_lt_mul_right this h0.le
      dsimp only
      omega

/-- The sampled index range never reaches further than 105% of the upper end plus 5% of the lower one. -/
theorem sample_bound (start stop : Fin (m + 1) → K) (res : ℕ) (n : Fin (m + 1) → ℕ) (hn : sampleShape start stop res = .ok n)
    (h0 : 0 < sampleStep start stop res) (i : Fin (m + 1) → ℕ) (a : Fin (m + 1)) (hi : i a < n a) :
    worldCoord start stop res (fun b => (i b : K)) a < stop a + (start a + stop a) / 20 := by
  rw [sampleShape] at hn
  split_ifs at hn with hc
  obtain rfl := Except.ok.inj hn
  simp only [not_or, not_exists, not_lt] at hc
  have h1 : (i a : ℤ) < ⌈sampleExtent start stop a / sampleStep start stop res⌉ := by
    have := hc.2 a
    dsimp only at hi
    omega
  have h2 : ((i a : ℤ) : K) < sampleExtent start stop a / sampleStep start stop res := Int.lt_ceil.mp h1
  rw [lt_div_iff₀ h0] at h2
  push_cast at h2
  unfold worldCoord
  unfold sampleExtent at h2
  linarith

/-- **C95** is false for a box below the origin: whatever the resolution, a strip of 5% of the width of the box from -1 to 0 is
never sampled. -/
theorem sample_misses_end (res : ℕ) (hres : 0 < res) (n : Fin 2 → ℕ)
    (hn : sampleShape (fun _ => (-1 : K)) (fun _ => 0) res = .ok n) (i : Fin 2 → ℕ) (a : Fin 2) (hi : i a < n a) :
    worldCoord (fun _ => (-1 : K)) (fun _ => 0) res (fun b => (i b : K)) a < -(1 / 20) := by
  have hr : (0 : K) < res := by exact_mod_cast hres
  have h0 : 0 < sampleStep (fun _ : Fin 2 => (-1 : K)) (fun _ => 0) res := by
    refine div_pos (lt_of_lt_of_le ?_ (maxv_ge _ 0)) hr
    norm_num [sampleExtent]
  have := sample_bound (fun _ : Fin 2 => (-1 : K)) (fun _ => 0) res n hn h0 i a hi
  linarith

/-- **C95** is false for a box far below the origin: the step is negative and every sample lies outside the box or on its
lower corner. -/
theorem sample_backwards (res : ℕ) (hres : 0 < res) (i : Fin 2 → ℕ) (a : Fin 2) :
    sampleStep (fun _ : Fin 2 => (-2 : K)) (fun _ => -(19 / 10)) res < 0 ∧
    worldCoord (fun _ => (-2 : K)) (fun _ => -(19 / 10)) res (fun b => (i b : K)) a ≤ -2 := by
  have hr : (0 : K) < res := by exact_mod_cast hres
  have h0 : sampleStep (fun _ : Fin 2 => (-2 : K)) (fun _ => -(19 / 10)) res < 0 := by
    refine div_neg_of_neg_of_pos ?_ hr
    obtain ⟨b, hb⟩ := exists_maxv (sampleExtent (fun _ : Fin 2 => (-2 : K)) fun _ => -(19 / 10))
    rw [hb]
    norm_num [sampleExtent]
  refine ⟨h0, ?_⟩
  have h1 : (i a : K) * sampleStep (fun _ : Fin 2 => (-2 : K)) (fun _ => -(19 / 10)) res ≤ 0 :=
    mul_nonpos_of_nonneg_of_nonpos (Nat.cast_nonneg _) h0.le
  unfold worldCoord
  linarith

end

/-- **C95** is false for a flat box at the origin at the default resolution: the samples of `[0, 1] x [0, 1/10]` end below
the top, so a lid there is not seen. -/
theorem sample_misses_flat_top :
    ∃ n, sampleShape ![(0 : ℚ), 0] ![1, 1 / 10] 100 = .ok n ∧
      ∀ i : Fin 2 → ℕ, i 1 < n 1 → worldCoord ![(0 : ℚ), 0] ![1, 1 / 10] 100 (fun b => (i b : ℚ)) 1 ≤ 945 / 10000 := by
  refine ⟨![100, 10], ?_, fun i hi => ?_⟩
  · have : (match sampleShape ![(0 : ℚ), 0] ![1, 1 / 10] 100 with | .ok n => some (n 0, n 1) | .error _ => none) =
        some (100, 10) := by decide +kernel
    cases h : sampleShape ![(0 : ℚ), 0] ![1, 1 / 10] 100 with
    | error e => rw [h] at this; simp at this
    | ok n =>
      rw [h] at this
      simp only [Option.some.injEq, Prod.mk.injEq] at this
      congr 1
      funext a
      fin_cases a
      · exact this.1
      · exact this.2
  · have h : sampleStep ![(0 : ℚ), 0] ![1, 1 / 10] 100 = 105 / 10000 := by decide +kernel
    have hi' : (i 1 : ℚ) ≤ 9 := by
      have : i 1 < 10 := hi
      exact_mod_cast Nat.lt_succ_iff.mp this
    unfold worldCoord
    rw [h]
    simp
    linarith

/-- The unit square meets the hypotheses of `sample_covers_partial`, with 100 samples a side and the finer statement too. -/
example : ∃ n, sampleShape (fun _ : Fin 2 => (0 : ℚ)) (fun _ => 1) 100 = .ok n ∧ n 0 = 100 ∧ n 1 = 100 := by
  have : (match sampleShape (fun _ : Fin 2 => (0 : ℚ)) (fun _ => 1) 100 with | .ok n => some (n 0, n 1) | .error _ => none) =
      some (100, 100) := by decide +kernel
  cases h : sampleShape (fun _ : Fin 2 => (0 : ℚ)) (fun _ => 1) 100 with
  | error e => rw [h] at this; simp at this
  | ok n =>
    rw [h] at this
    simp only [Option.some.injEq, Prod.mk.injEq] at this
    exact ⟨n, rfl, this.1, this.2⟩

/-! ### C96: the drawn surface -/

/-- A function that changes by at most the displacement when one coordinate changes. -/
def Spec.AxisLipschitz {K : Type*} [Field K] [LinearOrder K] {d : ℕ} (f : (Fin d → K) → K) : Prop :=
  ∀ x a t, |f (Function.update x a (x a + t)) - f x| ≤ |t|

/-- A vertex that a contour finder puts on the edge from sample `i` in direction `a` by linear interpolation, where the sampled
values change sign. -/
structure Spec.EdgeVertex {K : Type*} [Field K] [LinearOrder K] {m : ℕ} (values : (Fin (m + 1) → ℕ) → K) (v : Fin (m + 1) → K)
    (i : Fin (m + 1) → ℕ) (a : Fin (m + 1)) : Prop where
  change : values i * values (Function.update i a (i a + 1)) ≤ 0
  ne : values i ≠ values (Function.update i a (i a + 1))
  place : v = Function.update (fun b => (i b : K)) a
    (i a + values i / (values i - values (Function.update i a (i a + 1))))

section
variable {K : Type*} [Field K] [LinearOrder K] [IsStrictOrderedRing K] [FloorRing K] {m : ℕ}

omit [IsStrictOrderedRing K] [FloorRing K] in
theorem worldCoord_update (start stop : Fin (m + 1) → K) (res : ℕ) (u : Fin (m + 1) → K) (a : Fin (m + 1)) (t : K) :
    worldCoord start stop res (Function.update u a (u a + t)) =
      Function.update (worldCoord start stop res u) a (worldCoord start stop res u a + t * sampleStep start stop res) := by
  funext b
  by_cases hb : b = a
  · subst hb
    simp [worldCoord]
    ring
  · simp [worldCoord, Function.update_of_ne hb]

theorem interp_bound {A B v h s : K} (h0 : 0 < h) (_hD : A - B ≤ h) (hA : 0 ≤ A) (hB : B ≤ 0) (hne : 0 < A - B)
    (hs : s = A / (A - B)) (h1 : |v - A| ≤ s * h) (h2 : |v - B| ≤ (1 - s) * h) : |v| ≤ h / 2 := by
  have hsD : s * (A - B) = A := by rw [hs]; field_simp
  have e1 := abs_le.mp h1
  have e2 := abs_le.mp h2
  set D := A - B with hDdef
  have hBv : B = -(1 - s) * D := by linear_combination hDdef - hsD
  rw [abs_le]
  constructor
  · have p1 : A - s * h ≤ v := by linarith [e1.1]
    have p2 : B - (1 - s) * h ≤ v := by linarith [e2.1]
    rw [← hsD] at p1
    rw [hBv] at p2
    have q1 := mul_le_mul_of_nonneg_left p1 (by linarith : (0 : K) ≤ h + D)
    have q2 := mul_le_mul_of_nonneg_left p2 (by linarith : (0 : K) ≤ h - D)
    have : -(h * h) ≤ 2 * h * v := by nlinarith
    have : 0 ≤ h * (h + 2 * v) := by linarith
    have := nonneg_of_mul_nonneg_right this h0
    linarith
  · have p1 : v ≤ A + s * h := by linarith [e1.2]
    have p2 : v ≤ B + (1 - s) * h := by linarith [e2.2]
    rw [← hsD] at p1
    rw [hBv] at p2
    have q1 := mul_le_mul_of_nonneg_left p1 (by linarith : (0 : K) ≤ h - D)
    have q2 := mul_le_mul_of_nonneg_left p2 (by linarith : (0 : K) ≤ h + D)
    have : 2 * h * v ≤ h * h := by nlinarith
    have : 0 ≤ h * (h - 2 * v) := by linarith
    have := nonneg_of_mul_nonneg_right this h0
    linarith

/-- **C96**: where the distance is sampled with a positive step, the drawn vertex lies on the edge between the two samples and
the obstacle is at most half a step away from it, as measured by its own distance function. -/
theorem drawn_vertex_near_surface (dist : (Fin (m + 1) → K) → K) (hl : AxisLipschitz dist) (start stop : Fin (m + 1) → K) (res : ℕ)
    (h0 : 0 < sampleStep start stop res) (v : Fin (m + 1) → K) (i : Fin (m + 1) → ℕ) (a : Fin (m + 1))
    (hv : EdgeVertex (sdfSample dist start stop res) v i a) :
    |dist (worldCoord start stop res v)| ≤ sampleStep start stop res / 2 ∧
    (∀ b, b ≠ a → worldCoord start stop res v b = worldCoord start stop res (fun c => (i c : K)) b) ∧
    worldCoord start stop res (fun c => (i c : K)) a ≤ worldCoord start stop res v a ∧
    worldCoord start stop res v a ≤ worldCoord start stop res (fun c => (i c : K)) a + sampleStep start stop res := by
  set h := sampleStep start stop res with hh
  set x := worldCoord start stop res (fun c => (i c : K)) with hx
  have hA : sdfSample dist start stop res i = dist x := rfl
  have hB : sdfSample dist start stop res (Function.update i a (i a + 1)) = dist (Function.update x a (x a + h)) := by
    have e : (fun b => ((Function.update i a (i a + 1) b : ℕ) : K)) =
        Function.update (fun c => (i c : K)) a ((i a : K) + 1) := by
      funext b
      by_cases hb : b = a
      · subst hb; simp
      · simp [Function.update_of_ne hb]
    rw [sdfSample, e, worldCoord_update start stop res (fun c => (i c : K)) a 1, one_mul]
  obtain ⟨hc, hne, hp⟩ := hv
  rw [hA, hB] at hc hne hp
  set A := dist x
  set B := dist (Function.update x a (x a + h))
  set s := A / (A - B) with hs
  have hw : worldCoord start stop res v = Function.update x a (x a + s * h) := by
    rw [hp, worldCoord_update start stop res (fun c => (i c : K)) a s]
  have hAB : |B - A| ≤ h := (hl x a h).trans (abs_of_pos h0).le
  have hs01 : 0 ≤ s ∧ s ≤ 1 := by
    rcases lt_or_gt_of_ne (sub_ne_zero.mpr hne) with hneg | hpos
    · have : A ≤ 0 ∧ 0 ≤ B := by
        constructor <;> by_contra hcon <;> nlinarith
      exact ⟨div_nonneg_of_nonpos this.1 hneg.le, by rw [hs, div_le_one_of_neg hneg]; linarith [this.2]⟩
    · have : 0 ≤ A ∧ B ≤ 0 := by
        constructor <;> by_contra hcon <;> nlinarith
      exact ⟨div_nonneg this.1 hpos.le, by rw [hs, div_le_one hpos]; linarith [this.2]⟩
  have e1 : |dist (Function.update x a (x a + s * h)) - A| ≤ s * h :=
    (hl x a (s * h)).trans (abs_of_nonneg (mul_nonneg hs01.1 h0.le)).le
  have e2 : |dist (Function.update x a (x a + s * h)) - B| ≤ (1 - s) * h := by
    have := hl (Function.update x a (x a + s * h)) a ((1 - s) * h)
    have e : Function.update (Function.update x a (x a + s * h)) a
        ((Function.update x a (x a + s * h)) a + (1 - s) * h) = Function.update x a (x a + h) := by
      rw [Function.update_idem, Function.update_self]
      congr 1
      ring
    rw [e, abs_sub_comm, abs_of_nonneg (mul_nonneg (by linarith [hs01.2]) h0.le)] at this
    exact this
  refine ⟨?_, fun b hb => ?_, ?_, ?_⟩
  · rw [hw]
    rcases lt_or_gt_of_ne (sub_ne_zero.mpr hne) with hneg | hpos
    · have hAB' : A ≤ 0 ∧ 0 ≤ B := by
        constructor <;> by_contra hcon <;> nlinarith
      have := interp_bound (A := -A) (B := -B) (v := -dist (Function.update x a (x a + s * h))) (s := s) h0
        (by linarith [(abs_le.mp hAB).2]) (by linarith) (by linarith) (by linarith)
        (by rw [hs, ← neg_div_neg_eq]; congr 1; ring)
        (by rw [← abs_neg]; convert e1 using 2; ring) (by rw [← abs_neg]; convert e2 using 2; ring)
      rwa [abs_neg] at this
    · have hAB' : 0 ≤ A ∧ B ≤ 0 := by
        constructor <;> by_contra hcon <;> nlinarith
      exact interp_bound (A := A) (B := B) h0 (by linarith [(abs_le.mp hAB).1]) hAB'.1 hAB'.2 hpos hs e1 e2
  · rw [hw, Function.update_of_ne hb]
  · rw [hw, Function.update_self]
    linarith [mul_nonneg hs01.1 h0.le]
  · rw [hw, Function.update_self]
    have : s * h ≤ 1 * h := mul_le_mul_of_nonneg_right hs01.2 h0.le
    linarith

end

theorem signedDist_axisLipschitz {d : ℕ} (S : Set (Fin d → ℝ)) : AxisLipschitz (signedDist S) := by
  intro x a t
  refine (signedDist_lip S _ _).trans (le_of_eq ?_)
  have : ∀ b, (Function.update x a (x a + t) b - x b) ^ 2 = if b = a then t ^ 2 else 0 := by
    intro b
    by_cases hb : b = a
    · subst hb; simp
    · simp [hb]
  rw [eDist]
  simp only [this]
  rw [Finset.sum_ite_eq' Finset.univ a, if_pos (Finset.mem_univ a), Real.sqrt_sq_eq_abs]

/-- **C96**, over the reals: on the very edge on which the vertex is drawn there is a point where the distance is zero. -/
theorem drawn_edge_meets_surface {m : ℕ} (dist : (Fin (m + 1) → ℝ) → ℝ) (hl : AxisLipschitz dist) (start stop : Fin (m + 1) → ℝ)
    (res : ℕ) (h0 : 0 < sampleStep start stop res) (v : Fin (m + 1) → ℝ) (i : Fin (m + 1) → ℕ) (a : Fin (m + 1))
    (hv : EdgeVertex (sdfSample dist start stop res) v i a) :
    ∃ y, dist y = 0 ∧ (∀ b, b ≠ a → y b = worldCoord start stop res v b) ∧
      |y a - worldCoord start stop res v a| ≤ sampleStep start stop res := by
  obtain ⟨-, n2, n3, n4⟩ := drawn_vertex_near_surface dist hl start stop res h0 v i a hv
  set h := sampleStep start stop res with hh
  set x := worldCoord start stop res (fun c => (i c : ℝ)) with hx
  have hB : sdfSample dist start stop res (Function.update i a (i a + 1)) = dist (Function.update x a (x a + h)) := by
    have e : (fun b => ((Function.update i a (i a + 1) b : ℕ) : ℝ)) =
        Function.update (fun c => (i c : ℝ)) a ((i a : ℝ) + 1) := by
      funext b
      by_cases hb : b = a
      · subst hb; simp
      · simp [Function.update_of_ne hb]
    rw [sdfSample, e, worldCoord_update start stop res (fun c => (i c : ℝ)) a 1, one_mul]
  have hc := hv.change
  rw [hB] at hc
  change dist x * _ ≤ 0 at hc
  set g : ℝ → ℝ := fun t => dist (Function.update x a (x a + t)) with hg
  have hgl : ∀ s t, |g t - g s| ≤ |t - s| := by
    intro s t
    have := hl (Function.update x a (x a + s)) a (t - s)
    rw [Function.update_idem, Function.update_self] at this
    have e : x a + s + (t - s) = x a + t := by ring
    rw [e] at this
    exact this
  have hgc : Continuous g := by
    refine (LipschitzWith.of_dist_le_mul (K := 1) fun s t => ?_).continuous
    rw [Real.dist_eq, Real.dist_eq, NNReal.coe_one, one_mul]
    exact hgl t s
  have g0 : g 0 = dist x := by simp [hg]
  rw [← g0] at hc
  change g 0 * g h ≤ 0 at hc
  have key : ∃ t ∈ Set.Icc 0 h, g t = 0 := by
    rcases le_total (g 0) 0 with hn | hp
    · rcases hn.lt_or_eq with hlt | heq
      · have : 0 ≤ g h := by by_contra hcon; nlinarith
        exact intermediate_value_Icc h0.le hgc.continuousOn ⟨hn, this⟩
      · exact ⟨0, ⟨le_refl _, h0.le⟩, heq⟩
    · rcases hp.lt_or_eq with hlt | heq
      · have : g h ≤ 0 := by by_contra hcon; nlinarith
        exact intermediate_value_Icc' h0.le hgc.continuousOn ⟨this, hp⟩
      · exact ⟨0, ⟨le_refl _, h0.le⟩, heq.symm⟩
  obtain ⟨t, ⟨t0, t1⟩, ht⟩ := key
  refine ⟨Function.update x a (x a + t), ht, fun b hb => by rw [Function.update_of_ne hb, n2 b hb], ?_⟩
  rw [Function.update_self, abs_le]
  constructor <;> linarith

/-- A floor at height 1/2 in the unit square, sampled 100 times a side, meets the hypotheses on the edge above sample
`(10, 47)`. -/
example : AxisLipschitz (fun x : Fin 2 → ℚ => x 1 - 1 / 2) ∧
    0 < sampleStep (fun _ : Fin 2 => (0 : ℚ)) (fun _ => 1) 100 ∧
    ∃ v, EdgeVertex (sdfSample (fun x : Fin 2 → ℚ => x 1 - 1 / 2) (fun _ => 0) (fun _ => 1) 100) v ![10, 47] 1 := by
  refine ⟨fun x a t => ?_, by decide +kernel, _, by decide +kernel, by decide +kernel, rfl⟩
  fin_cases a <;> simp

section
variable {K : Type*} [Field K] [LinearOrder K]

/-- **C96** for the normals stored in a VTK file: the product of the stored normal with a displacement between drawn points is
that of the normal found with the displacement in index coordinates, up to the step. In particular it is perpendicular to
the drawn surface where it was perpendicular to the surface found. -/
theorem vtk_mesh_normals (start stop : Fin 3 → K) (res : ℕ) {n : ℕ} (msh : IndexMesh K n) (v w : Fin n) :
    dot ((vtkMesh start stop res msh).normals v)
        (fun a => (vtkMesh start stop res msh).verts w a - (vtkMesh start stop res msh).verts v a) =
      sampleStep start stop res * dot (msh.normals v) (fun a => msh.verts w a - msh.verts v a) := by
  simp only [dot, vtkMesh, worldCoord, Finset.mul_sum]
  refine Finset.sum_congr rfl fun a _ => ?_
  ring

/-- **C96** (partial) for the normals logged to Rerun: the vertices are those of the VTK mesh, and a normal is right where its first
two components agree. Missing: other normals, for which it is false (`rerun_mesh_normals_wrong`). -/
theorem rerun_mesh_normals_partial (start stop : Fin 3 → K) (res : ℕ) {n : ℕ} (msh : IndexMesh K n) :
    (rerunMesh start stop res msh).verts = (vtkMesh start stop res msh).verts ∧
    ∀ v, (rerunMesh start stop res msh).normals v = (vtkMesh start stop res msh).normals v ↔
      msh.normals v 0 = msh.normals v 1 := by
  refine ⟨rfl, fun v => ⟨fun h => ?_, fun h => ?_⟩⟩
  · have := congrFun h 1
    simpa [rerunMesh, vtkMesh] using this
  · funext a
    fin_cases a <;> simp [rerunMesh, vtkMesh, h]

end

/-- **C96** is false for Rerun: a floor with normal `e_y` is logged with the normal `e_x`, which lies in the floor. -/
theorem rerun_mesh_normals_wrong :
    ∃ (start stop : Fin 3 → ℚ) (msh : IndexMesh ℚ 2),
      dot (msh.normals 0) (fun a => msh.verts 1 a - msh.verts 0 a) = 0 ∧
      dot ((rerunMesh start stop 100 msh).normals 0)
        (fun a => (rerunMesh start stop 100 msh).verts 1 a - (rerunMesh start stop 100 msh).verts 0 a) ≠ 0 := by
  refine ⟨fun _ => 0, fun _ => 1, ⟨![![0, 10, 0], ![1, 10, 0]], fun _ => ![0, 1, 0]⟩, ?_, ?_⟩ <;> decide +kernel

/-! ### C97: points, contours and the domain in one picture -/

section
variable {K : Type*} [Field K] [LinearOrder K]

/-- **C97**: points, contours and the corners of the domain are put into the picture by one and the same map, which keeps
distances; with Rerun it turns the second axis of plane scenes over, in VTK files it adds a zero. -/
theorem drawn_together (start stop : Fin 2 → K) (res : ℕ) (idx : Fin 2 → K) {dim : ℕ} (x y origin upper : Fin dim → K) (h : K) :
    rerunContourPoint start stop res idx = rerunPoint (worldCoord start stop res idx) ∧
    vtkContourPoint start stop res idx = vtkPoint (worldCoord start stop res idx) ∧
    (rerunBox origin upper h).1 = rerunPoint origin ∧ (rerunBox origin upper h).2 = rerunPoint (fun a => upper a + h) ∧
    ∑ a, (rerunPoint x a - rerunPoint y a) ^ 2 = ∑ a, (x a - y a) ^ 2 ∧
    (dim ≤ 3 → ∑ a, (vtkPoint x a - vtkPoint y a) ^ 2 = ∑ a, (x a - y a) ^ 2) ∧
    (dim ≠ 2 → rerunPoint x = x) ∧ rerunPoint (rerunPoint x) = x ∧ (∀ a (ha : a.val < dim), vtkPoint x a = x ⟨a.val, ha⟩) := by
  refine ⟨?_, ?_, rfl, ?_, ?_, fun hd => ?_, fun hd => ?_, ?_, fun a ha => by simp [vtkPoint, ha]⟩
  · funext a; fin_cases a <;> simp [rerunContourPoint, rerunPoint]
  · funext a; fin_cases a <;> simp [vtkContourPoint, vtkPoint]
  · funext a; simp [rerunBox]
  · refine Finset.sum_congr rfl fun a _ => ?_
    unfold rerunPoint
    split_ifs <;> ring
  · rcases dim with _ | _ | _ | _ | d
    · simp [vtkPoint]
    · simp [vtkPoint, Fin.sum_univ_three]
    · simp [vtkPoint, Fin.sum_univ_three, Fin.sum_univ_two]
    · simp [vtkPoint, Fin.sum_univ_three]
    · omega
  · funext a; simp [rerunPoint, hd]
  · funext a; unfold rerunPoint; split_ifs <;> simp

variable [IsStrictOrderedRing K] [FloorRing K]

/-- **C97**: the box drawn for a grid made by `GridDomain.create` starts at its first node, contains all its nodes and ends less
than two cells beyond the last ones. -/
theorem domain_box_contains_grid {dim : ℕ} (origin stop : Fin dim → K) (h : K) (hh : 0 < h) (hle : ∀ a, origin a ≤ stop a) (pad : ℕ)
    (r : ℕ) (hr : r < (GridDomain.create origin stop h pad).numCells) (a : Fin dim) :
    let g := GridDomain.create origin stop h pad
    g.origin a ≤ g.positionStack r a ∧ g.positionStack r a ≤ g.stop a ∧ g.stop a < g.stop a + g.cellSize ∧
    g.stop a + g.cellSize < (((g.gridSize a - 1 : ℕ) : K) * g.cellSize + g.origin a) + 2 * g.cellSize ∧
    (∀ ha : a.val < 3, (vtkBox g.origin g.stop g.cellSize).1 ⟨a.val, ha⟩ ≤ vtkPoint (g.positionStack r) ⟨a.val, ha⟩ ∧
      vtkPoint (g.positionStack r) ⟨a.val, ha⟩ ≤ (vtkBox g.origin g.stop g.cellSize).2 ⟨a.val, ha⟩) ∧
    min ((rerunBox g.origin g.stop g.cellSize).1 a) ((rerunBox g.origin g.stop g.cellSize).2 a) ≤ rerunPoint (g.positionStack r) a ∧
    rerunPoint (g.positionStack r) a ≤ max ((rerunBox g.origin g.stop g.cellSize).1 a) ((rerunBox g.origin g.stop g.cellSize).2 a) := by
  intro g
  have hk := unravel_lt dim g.gridSize r hr a
  set k := unravel dim g.gridSize r a with hkdef
  have hg : g.gridSize a = (pyInt ((g.stop a - g.origin a) / h + 1)).toNat := rfl
  have hc : g.cellSize = h := rfl
  have hdiff : 0 ≤ g.stop a - g.origin a := by
    change 0 ≤ (stop a + pad * h) - (origin a - pad * h)
    have := hle a
    have : (0 : K) ≤ pad * h := by positivity
    linarith
  have hq : 0 ≤ (g.stop a - g.origin a) / h := div_nonneg hdiff hh.le
  have hfl : pyInt ((g.stop a - g.origin a) / h + 1) = ⌊(g.stop a - g.origin a) / h⌋ + 1 := by
    rw [pyInt, if_pos (by linarith), Int.floor_add_one]
  have hf0 : 0 ≤ ⌊(g.stop a - g.origin a) / h⌋ := Int.floor_nonneg.mpr hq
  have hkz : (k : ℤ) ≤ ⌊(g.stop a - g.origin a) / h⌋ := by
    rw [hg, hfl] at hk; omega
  have hgz : ((g.gridSize a - 1 : ℕ) : ℤ) = ⌊(g.stop a - g.origin a) / h⌋ := by
    rw [hg, hfl]; omega
  have hkK : (k : K) * h ≤ g.stop a - g.origin a := by
    rw [← le_div_iff₀ hh]
    have := Int.le_floor.mp hkz
    simpa using this
  have hgK : g.stop a - g.origin a < (((g.gridSize a - 1 : ℕ) : K) + 1) * h := by
    rw [← div_lt_iff₀ hh]
    have e : ((g.gridSize a - 1 : ℕ) : K) = (⌊(g.stop a - g.origin a) / h⌋ : K) := by exact_mod_cast congrArg (Int.cast (R := K)) hgz
    rw [e]
    exact Int.lt_floor_add_one _
  have hpos : g.positionStack r a = (k : K) * h + g.origin a := rfl
  have b1 : g.origin a ≤ g.positionStack r a := by
    rw [hpos]
    have : (0 : K) ≤ (k : K) * h := by positivity
    linarith
  have b2 : g.positionStack r a ≤ g.stop a := by rw [hpos]; linarith
  refine ⟨b1, b2, by rw [hc]; linarith, by rw [hc]; linarith, fun ha => ?_, ?_, ?_⟩
  · simp only [vtkBox, vtkPoint, Fin.is_lt, dite_true, Fin.eta]
    exact ⟨b1, by rw [hc]; linarith⟩
  · simp only [rerunBox, rerunPoint]
    rw [hc]
    split_ifs
    · exact (min_le_right _ _).trans (by linarith)
    · exact (min_le_left _ _).trans b1
  · simp only [rerunBox, rerunPoint]
    rw [hc]
    split_ifs
    · exact le_trans (by linarith) (le_max_left _ _)
    · exact le_trans (by linarith) (le_max_right _ _)

end

/-- A grid meeting the hypotheses: the unit square with cells of 3/10 has 64 nodes and is drawn from -6/10 to 19/10. -/
example : (GridDomain.create ![(0 : ℚ), 0] ![1, 1] (3 / 10) 2).numCells = 64 ∧
    vtkBox (GridDomain.create ![(0 : ℚ), 0] ![1, 1] (3 / 10) 2).origin (GridDomain.create ![(0 : ℚ), 0] ![1, 1] (3 / 10) 2).stop
      (3 / 10) = (![-(6 / 10), -(6 / 10), -(1 / 100)], ![19 / 10, 19 / 10, 1 / 100]) := by
  decide +kernel

/-- **C97** (partial): with scale 1 the disc or ball drawn for a point has the initial area or volume of the point; scaling
multiplies it by the power of the scale. Missing: the current volume, see `drawn_size_ignores_compression`. -/
theorem drawn_size_partial (V scale : ℝ) (hV : 0 ≤ V) (hs : 0 ≤ scale) :
    (∃ r, pointRadius realFns Real.pi 2 V scale = .ok r ∧ 0 ≤ r ∧ Real.pi * r ^ 2 = scale ^ 2 * V) ∧
    (∃ r, pointRadius realFns Real.pi 3 V scale = .ok r ∧ 0 ≤ r ∧ 4 / 3 * Real.pi * r ^ 3 = scale ^ 3 * V) := by
  have hpi := Real.pi_pos
  constructor
  · refine ⟨_, rfl, mul_nonneg (Real.sqrt_nonneg _) hs, ?_⟩
    change Real.pi * (Real.sqrt (V / Real.pi) * scale) ^ 2 = _
    rw [mul_pow, Real.sq_sqrt (by positivity)]
    field_simp
  · refine ⟨_, rfl, ?_, ?_⟩
    · exact mul_nonneg (Real.rpow_nonneg (by positivity) _) hs
    · change 4 / 3 * Real.pi * ((3 * V / (4 * Real.pi)) ^ (1 / 3 : ℝ) * scale) ^ 3 = _
      have : ((3 * V / (4 * Real.pi)) ^ (1 / 3 : ℝ)) ^ 3 = 3 * V / (4 * Real.pi) := by
        rw [← Real.rpow_natCast, ← Real.rpow_mul (by positivity)]
        norm_num
      rw [mul_pow, this]
      field_simp

/-- **C97** is false for the current volume: a plane point that has been compressed or has expanded is not drawn with the area it
has, and two states that differ only in their volumes are drawn alike. -/
theorem drawn_size_ignores_compression {n : ℕ} (s : MPState ℝ 2 n) (lookup : String → Option (PropData ℝ n)) (name : String)
    (time : Option ℝ) (k : ℤ) :
    (∀ p, 0 ≤ s.volume0 p → s.volume p ≠ s.volume0 p → ∃ c, vtkParticles realFns Real.pi s lookup (some name) 1 time (some k) =
      .ok (stepName k, c) ∧ Real.pi * c.radius p ^ 2 ≠ s.volume p) ∧
    ∀ V', vtkParticles realFns Real.pi { s with volume := V' } lookup (some name) 1 time (some k) =
      vtkParticles realFns Real.pi s lookup (some name) 1 time (some k) := by
  refine ⟨fun p h0 hne => ⟨_, rfl, ?_⟩, fun V' => rfl⟩
  obtain ⟨⟨r, e, -, hr⟩, -⟩ := drawn_size_partial (s.volume0 p) 1 h0 zero_le_one
  intro h
  simp only [e] at h
  exact hne (by linarith)

/-! ### C98: colours -/

section
variable {K : Type*} [Field K] [LinearOrder K] [IsStrictOrderedRing K] {m : ℕ}

/-- **C98** (partial): with the limits left to the data and a spread of at least 1e-6, the numbers handed to the colour map fill the
unit interval: they lie in it, the least value gets 0, the greatest 1, and greater values get greater numbers; the
numbers do not change when the data are shifted. Missing: smaller spreads (`colours_flat`) and limits set by the
caller (`colours_outside`). -/
theorem colours_default_partial (f : Fin (m + 1) → K) (hspread : ∃ p q, 1 / 10 ^ 6 ≤ f p - f q) :
    let c := colourValues none none f
    (∀ p, 0 ≤ c p ∧ c p ≤ 1) ∧ (∃ p, c p = 0 ∧ ∀ q, f p ≤ f q) ∧ (∃ p, c p = 1 ∧ ∀ q, f q ≤ f p) ∧
    (∀ p q, c p < c q ↔ f p < f q) ∧ ∀ t, colourValues none none (fun p => f p + t) = c := by
  obtain ⟨p0, q0, hpq⟩ := hspread
  have hsp : 1 / 10 ^ 6 ≤ maxv f - minv f := hpq.trans (sub_le_sub (maxv_ge f p0) (minv_le f q0))
  have hpos : 0 < maxv f - minv f := lt_of_lt_of_le (by positivity) hsp
  intro c
  have hc : c = fun p => (f p - minv f) / (maxv f - minv f) := by
    change colourValues none none f = _
    simp only [colourValues, Option.getD_none, if_neg (not_lt.mpr hsp)]
  refine ⟨fun p => ?_, ?_, ?_, fun p q => ?_, fun t => ?_⟩
  · rw [hc]
    refine ⟨div_nonneg (sub_nonneg.mpr (minv_le f p)) hpos.le, ?_⟩
    rw [div_le_one hpos]
    exact sub_le_sub_right (maxv_ge f p) _
  · obtain ⟨p, hp⟩ := exists_minv f
    exact ⟨p, by rw [hc]; simp [hp], fun q => hp ▸ minv_le f q⟩
  · obtain ⟨p, hp⟩ := exists_maxv f
    exact ⟨p, by rw [hc]; beta_reduce; rw [← hp, div_self hpos.ne'], fun q => hp ▸ maxv_ge f q⟩
  · rw [hc]
    beta_reduce
    rw [div_lt_div_iff_of_pos_right hpos, sub_lt_sub_iff_right]
  · have h1 : minv (fun p => f p + t) = minv f + t := by
      apply le_antisymm
      · obtain ⟨p, hp⟩ := exists_minv f
        rw [hp]; exact minv_le (fun p => f p + t) p
      · exact le_minv fun i => add_le_add_left (minv_le f i) t
    have h2 : maxv (fun p => f p + t) = maxv f + t := by
      apply le_antisymm
      · obtain ⟨p, hp⟩ := exists_maxv fun p => f p + t
        rw [hp]; exact add_le_add_left (maxv_ge f p) t
      · obtain ⟨p, hp⟩ := exists_maxv f
        rw [hp]; exact maxv_ge (fun p => f p + t) p
    rw [hc]
    simp only [colourValues, Option.getD_none, h1, h2]
    rw [if_neg (by rw [not_lt]; linarith)]
    funext p
    congr 1 <;> ring

/-- With limits set by the caller that are at least 1e-6 apart, a number lies in the unit interval exactly where the value is
within the limits; with limits closer than that, or the wrong way round, all numbers are 0. -/
theorem colours_limits (f : Fin (m + 1) → K) (lo hi : K) (p : Fin (m + 1)) :
    (1 / 10 ^ 6 ≤ hi - lo → ((0 ≤ colourValues (some lo) (some hi) f p ∧ colourValues (some lo) (some hi) f p ≤ 1) ↔
      lo ≤ f p ∧ f p ≤ hi)) ∧ (hi - lo < 1 / 10 ^ 6 → colourValues (some lo) (some hi) f p = 0) := by
  constructor
  · intro h
    have hpos : 0 < hi - lo := lt_of_lt_of_le (by positivity) h
    simp only [colourValues, Option.getD_some, if_neg (not_lt.mpr h)]
    rw [div_le_one hpos, le_div_iff₀ hpos, zero_mul, sub_nonneg, sub_le_sub_iff_right]
  · intro h
    simp only [colourValues, Option.getD_some, if_pos h]

/-- **C98** is false for limits set by the caller: nothing clips the values. -/
theorem colours_outside : colourValues (some (0 : ℚ)) (some 1) ![2, -1] = ![2, -1] := by decide +kernel

/-- **C98** is false for data on a small scale: a field from 0 to 9e-7 is drawn in a single colour. -/
theorem colours_flat : ∃ f : Fin 2 → ℚ, f 0 < f 1 ∧ colourValues none none f 0 = colourValues none none f 1 :=
  ⟨![0, 9 / 10 ^ 7], by decide +kernel, by decide +kernel⟩

omit [LinearOrder K] [IsStrictOrderedRing K] in
/-- The norm by which vectors and tensors are coloured does not see their sense: opposite velocities, or tension and
compression, look the same. -/
theorem colours_ignore_sense (fn : MathFns K) {n d : ℕ} (f : Fin n → Fin d → K) (T : Fin n → Mat3 K) :
    scalarField fn (.vector fun p a => -f p a) = scalarField fn (.vector f) ∧
    scalarField fn (.tensor fun p => -T p) = scalarField fn (.tensor T) := by
  constructor <;> funext p <;> simp [scalarField]

omit [IsStrictOrderedRing K] in
/-- **C98**: colours given by the caller are used whatever the data; without them a missing property is drawn grey. -/
theorem colours_given (fn : MathFns K) {C : Type*} (prop : Option (PropData K (m + 1))) (lo hi : Option K) (c : C)
    (cs : Fin (m + 1) → C) (p : Fin (m + 1)) :
    pointColours fn (some (.one c)) prop lo hi p = .given c ∧ pointColours fn (some (.each cs)) prop lo hi p = .given (cs p) ∧
    pointColours (C := C) fn none none lo hi p = .grey ∧
    ∀ d, pointColours (C := C) fn none (some d) lo hi p = .mapped (colourValues lo hi (scalarField fn d) p) :=
  ⟨rfl, rfl, rfl, fun _ => rfl⟩

end

/-- Three speeds and their numbers. -/
example : colourValues none none ![(1 : ℚ), 3, 2] = ![0, 1, 1 / 2] := by decide +kernel

/-! ### C99: files -/

theorem stepName_injective : Function.Injective stepName := fun a b h => by
  unfold stepName at h
  exact pad5_injective (List.append_cancel_left (List.append_cancel_right h))

/-- What the last call with this label and this step wrote. -/
def Spec.lastLogged {α : Type*} (label : String) (k : ℤ) : List (VtkCall α) → Option α
  | [] => none
  | c :: cs => (lastLogged label k cs).or
      (if c.label = label ∧ (c.step = some k ∨ c.step = none ∧ k = 0) then some c.content else none)

/-- **C99**: after any sequence of calls the file of a label and a step holds what the last call with that label and step wrote
(a call without a step counts as step 0), or what was there before if there was none; and no other file of the
directory is touched. -/
theorem vtk_files {α : Type*} (d : VtkDir α) (cs : List (VtkCall α)) (label : String) :
    (∀ k, vtkRun d cs label (stepName k) = match lastLogged label k cs with | some x => some x | none => d label (stepName k)) ∧
    ∀ name, (∀ k, name ≠ stepName k) → vtkRun d cs label name = d label name := by
  induction cs generalizing d with
  | nil => exact ⟨fun k => rfl, fun _ _ => rfl⟩
  | cons c cs ih =>
    obtain ⟨i1, i2⟩ := ih (saveVtk d c.label (stepName (c.step.getD 0)) c.content)
    constructor
    · intro k
      simp only [vtkRun]
      rw [i1, lastLogged]
      cases lastLogged label k cs with
      | some x => rfl
      | none =>
        simp only [Option.none_or, saveVtk]
        have e : (label = c.label ∧ stepName k = stepName (c.step.getD 0)) ↔
            (c.label = label ∧ (c.step = some k ∨ c.step = none ∧ k = 0)) := by
          rw [stepName_injective.eq_iff, eq_comm (a := label)]
          refine and_congr_right fun _ => ?_
          cases c.step with
          | none => simp
          | some j => simp [eq_comm]
        by_cases hc : c.label = label ∧ (c.step = some k ∨ c.step = none ∧ k = 0)
        · rw [if_pos hc, if_pos (e.mpr hc)]
        · rw [if_neg hc, if_neg fun h => hc (e.mp h)]
    · intro name hn
      simp only [vtkRun]
      rw [i2 name hn, saveVtk, if_neg fun h => hn _ h.2]

/-- **C99**: with distinct pairs of label and step no call destroys the file of another. -/
theorem vtk_series_kept {α : Type*} (d : VtkDir α) (cs : List (VtkCall α)) (hs : ∀ c ∈ cs, c.step.isSome)
    (hd : cs.Pairwise fun a b => (a.label, a.step) ≠ (b.label, b.step)) (c : VtkCall α) (hc : c ∈ cs) (k : ℤ)
    (hk : c.step = some k) : vtkRun d cs c.label (stepName k) = some c.content := by
  rw [(vtk_files d cs c.label).1 k]
  suffices h : lastLogged c.label k cs = some c.content by rw [h]
  clear d
  induction cs with
  | nil => simp at hc
  | cons b cs ih =>
    obtain ⟨hb, hcs⟩ := List.pairwise_cons.mp hd
    rw [lastLogged]
    rcases List.mem_cons.mp hc with rfl | hmem
    · have : lastLogged c.label k cs = none := by
        clear ih hc hcs hd
        induction cs with
        | nil => rfl
        | cons e cs ih2 =>
          rw [lastLogged, ih2 (fun x hx => hs x (by simp only [List.mem_cons] at hx ⊢; tauto)) (fun x hx => hb x (by simp [hx]))]
          have h1 := hb e (by simp)
          have h2 := hs e (by simp)
          rw [Option.none_or, if_neg]
          rintro ⟨e1, e2 | e2⟩
          · exact h1 (by rw [hk, e1, e2])
          · rw [e2.1] at h2; simp at h2
      rw [this, Option.none_or, if_pos ⟨rfl, .inl hk⟩]
    · rw [ih (fun x hx => hs x (by simp [hx])) hcs hmem, Option.some_or]

/-- **C99** is false without a step: of two calls only the second survives; and false for two bodies logged in one step under the
default label. -/
theorem vtk_default_step_overwrites {α : Type*} (d : VtkDir α) (label : String) (k : ℤ) (x y : α) :
    vtkRun d [⟨label, none, x⟩, ⟨label, none, y⟩] label (stepName 0) = some y ∧
    (∀ n, n ≠ stepName 0 → vtkRun d [⟨label, none, x⟩, ⟨label, none, y⟩] label n = d label n) ∧
    vtkRun d [⟨label, some k, x⟩, ⟨label, some k, y⟩] label (stepName k) = some y ∧
    ∀ n, n ≠ stepName k → vtkRun d [⟨label, some k, x⟩, ⟨label, some k, y⟩] label n = d label n := by
  refine ⟨?_, fun n hn => ?_, ?_, fun n hn => ?_⟩ <;> simp [vtkRun, saveVtk, *]

section
variable {K : Type*} [Field K]

/-- **C99**: what a call of `log_particles` writes: the positions with zeros added, under the name of its step; the data of the
property asked for, plane vectors with a zero added. It needs a name of a property and a plane or spatial state. -/
theorem vtk_particles_content (fn : MathFns K) (pi : K) {dim n : ℕ} (s : MPState K dim n) (lookup : String → Option (PropData K n))
    (name : String) (scale : K) (time : Option K) (k : ℤ) (hd : dim = 2 ∨ dim = 3) :
    ∃ c, vtkParticles fn pi s lookup (some name) scale time (some k) = .ok (stepName k, c) ∧
      (∀ p a, c.points p a = if h : a.val < dim then s.position p ⟨a.val, h⟩ else 0) ∧ c.time = time ∧
      (∀ p, pointRadius fn pi dim (s.volume0 p) scale = .ok (c.radius p)) ∧
      (∀ f, lookup name = some (.scalar f) → c.prop = .data (.scalar f)) ∧
      (∀ f : Fin n → Fin 2 → K, lookup name = some (.vector f) → c.prop = .data (.vector fun p => ![f p 0, f p 1, 0])) ∧
      (∀ f : Fin n → Fin 3 → K, lookup name = some (.vector f) → c.prop = .data (.vector f)) ∧
      (∀ f, lookup name = some (.tensor f) → c.prop = .data (.tensor f)) ∧
      (lookup name = none → c.prop = .object) := by
  have hcond : ¬ (dim ≠ 2 ∧ dim ≠ 3) := by omega
  refine ⟨_, by rw [vtkParticles, if_neg hcond]; rfl, fun p a => rfl, rfl, fun p => ?_, fun f h => ?_, fun f h => ?_,
    fun f h => ?_, fun f h => ?_, fun h => ?_⟩
  · rcases hd with rfl | rfl <;> rfl
  · simp [h, padProp]
  · simp only [h, padProp, if_true]
    congr 2
    funext p a
    fin_cases a <;> rfl
  · simp [h, padProp]
  · simp [h, padProp]
  · simp [h]

/-- **C99**: calls that cannot succeed: `property_name=None`, and an obstacle with a surface logged without a step (the default). -/
theorem vtk_calls_fail (fn : MathFns K) (pi : K) {dim n : ℕ} (s : MPState K dim n) (lookup : String → Option (PropData K n))
    (scale : K) (time : Option K) (step : Option ℤ) :
    vtkParticles fn pi s lookup none scale time step = .error .unboundLocalError ∧
    vtkSdfName true none = .error .typeError ∧ vtkSdfName false none = .ok none ∧
    ∀ k, vtkSdfName true (some k) = .ok (some (stepName k)) := by
  refine ⟨?_, rfl, rfl, fun k => rfl⟩
  unfold vtkParticles
  split_ifs <;> rfl

end

/-- The connectivity of the contours of a VTK file: it splits into one block for each contour, headed by its length, and the
blocks together list every vertex number once, in order. -/
theorem vtk_lines_partition (offset : ℕ) (ns : List ℕ) :
    ∃ segs : List (List ℕ), vtkLines offset ns = segs.flatMap (fun c => c.length :: c) ∧ segs.map List.length = ns ∧
      segs.flatten = (List.range ns.sum).map (· + offset) := by
  induction ns generalizing offset with
  | nil => exact ⟨[], rfl, rfl, rfl⟩
  | cons n ns ih =>
    obtain ⟨segs, h1, h2, h3⟩ := ih (offset + n)
    refine ⟨((List.range n).map (· + offset)) :: segs, ?_, ?_, ?_⟩
    · simp [vtkLines, h1]
    · simp [h2]
    · rw [List.flatten_cons, h3, List.sum_cons, List.range_add, List.map_append, List.map_map]
      congr 1
      refine List.map_congr_left fun a _ => ?_
      simp only [Function.comp_apply]
      omega

/-- How a VTK reader splits a connectivity list: the number of vertices of a cell, then the vertices. -/
def Spec.readCells : ℕ → List ℕ → Option (List (List ℕ))
  | _, [] => some []
  | 0, _ :: _ => none
  | k + 1, n :: rest => if n ≤ rest.length then (Spec.readCells k (rest.drop n)).map (rest.take n :: ·) else none

/-- The connectivity of a saved surface is read back as its triangles. -/
theorem vtk_faces_read (faces : List (Fin 3 → ℕ)) :
    Spec.readCells faces.length (vtkFaces faces) = some (faces.map fun f => [f 0, f 1, f 2]) := by
  induction faces with
  | nil => rfl
  | cons f fs ih =>
    have e : vtkFaces (f :: fs) = 3 :: f 0 :: f 1 :: f 2 :: vtkFaces fs := rfl
    rw [e, List.length_cons, Spec.readCells, if_pos (by simp)]
    simp [ih]

/-- Two files of a series; names as documented. -/
example : stepName 100 = "step_00100.vtp".toList ∧ vtkLines 0 [3, 2] = [3, 0, 1, 2, 2, 3, 4] := by decide +kernel

/-! ### C100: the viewer -/

/-- **C100**: however many visualisers a process makes, in whatever modes, at most one window or server is opened, and only by the
first of them. -/
theorem one_viewer (ms : List ViewerMode) :
    ((viewerRun false ms).filter (fun e => e ≠ .saveFile)).length ≤ 1 ∧ ∀ e ∈ viewerRun true ms, e = .saveFile := by
  have h2 : ∀ ms, ∀ e ∈ viewerRun true ms, e = .saveFile := by
    intro ms
    induction ms with
    | nil => intro e he; simp [viewerRun] at he
    | cons m ms ih =>
      intro e he
      simp only [viewerRun, newVisualizer, Bool.not_true, Bool.false_eq_true, if_false, List.mem_append] at he
      rcases he with he | he
      · split_ifs at he
        · simpa using he
        · simp at he
      · exact ih e he
  refine ⟨?_, h2 ms⟩
  cases ms with
  | nil => simp [viewerRun]
  | cons m ms =>
    simp only [viewerRun, newVisualizer, Bool.not_false, if_true, List.filter_append]
    have : (viewerRun true ms).filter (fun e => e ≠ .saveFile) = [] := by
      rw [List.filter_eq_nil_iff]
      intro e he
      simp [h2 ms e he]
    rw [this, List.append_nil]
    cases m <;> simp

/-- **C100** (partial): asking for a file (`mode="save"`) makes one whenever some visualiser was made before. Missing: the first
one of a process, for which it is false (`save_mode_ignored`). -/
theorem save_mode_partial (m : ViewerMode) (ms : List ViewerMode) :
    ((viewerRun false (m :: ms)).filter (fun e => e = .saveFile)).length = (ms.filter (fun m => m = .save)).length := by
  have h : ∀ ms, ((viewerRun true ms).filter (fun e => e = .saveFile)).length = (ms.filter (fun m => m = .save)).length := by
    intro ms
    induction ms with
    | nil => rfl
    | cons m ms ih =>
      simp only [viewerRun, newVisualizer, Bool.not_true, Bool.false_eq_true, if_false, List.filter_append, List.length_append, ih]
      by_cases hm : m = .save
      · subst hm; simp; omega
      · simp [hm]
  simp only [viewerRun, newVisualizer, Bool.not_false, if_true, List.filter_append, List.length_append, h]
  cases m <;> simp

/-- **C100** is false for a process with a single visualiser in mode "save": nothing is saved, nor shown. -/
theorem save_mode_ignored : viewerRun false [.save] = [] := rfl

/-- Three visualisers: one window, one file. -/
example : viewerRun false [.spawn, .spawn, .save] = [.openWindow, .saveFile] := rfl

end Hydrax
