import Verif.Props.SdfStar
import Mathlib.Analysis.SpecialFunctions.Log.Basic
import Mathlib.Analysis.Complex.ExponentialBounds

/-!
# Point clouds and tabulated obstacles (C76, C77)
-/

set_option linter.unusedSectionVars false

namespace Hydrax

open Spec

/-! ### Unions -/

section
variable {n : ℕ}

theorem distTo_nonneg (S : Set (Fin n → ℝ)) (x : Fin n → ℝ) : 0 ≤ distTo S x := by
  refine Real.sInf_nonneg ?_
  rintro _ ⟨y, -, rfl⟩
  exact eDist_nonneg _ _

theorem distTo_anti {S T : Set (Fin n → ℝ)} (h : S ⊆ T) (hS : S.Nonempty) (x : Fin n → ℝ) : distTo T x ≤ distTo S x := by
  obtain ⟨y0, hy0⟩ := hS
  refine le_csInf ⟨_, y0, hy0, rfl⟩ ?_
  rintro _ ⟨y, hy, rfl⟩
  exact csInf_le (bddBelow_dists T x) ⟨y, h hy, rfl⟩

/-- The smallest signed distance of several solids is the distance of their union outside of it, and never reports a point
deeper inside than it is. -/
theorem signedDist_union {m : ℕ} {S : Fin (m + 1) → Set (Fin n → ℝ)} (hne : ∀ i, (S i).Nonempty)
    (hc : (⋃ i, S i)ᶜ.Nonempty) (x : Fin n → ℝ) :
    signedDist (⋃ i, S i) x ≤ minv (fun i => signedDist (S i) x) ∧
    (x ∉ ⋃ i, S i → signedDist (⋃ i, S i) x = minv fun i => signedDist (S i) x) := by
  have hsub : ∀ i, S i ⊆ ⋃ i, S i := fun i => Set.subset_iUnion S i
  have out : x ∉ (⋃ i, S i) → signedDist (⋃ i, S i) x = minv fun i => signedDist (S i) x := by
    intro hx
    have hi : ∀ i, signedDist (S i) x = distTo (S i) x := by
      intro i
      have : x ∈ (S i)ᶜ := fun h => hx (hsub i h)
      rw [signedDist, distTo_self this, sub_zero]
    have hU : signedDist (⋃ i, S i) x = distTo (⋃ i, S i) x := by
      have : x ∈ (⋃ i, S i)ᶜ := hx
      rw [signedDist, distTo_self this, sub_zero]
    rw [hU]
    apply le_antisymm
    · exact le_minv fun i => by rw [hi i]; exact distTo_anti (hsub i) (hne i) x
    · obtain ⟨y0, hy0⟩ := hne 0
      refine le_csInf ⟨_, y0, hsub 0 hy0, rfl⟩ ?_
      rintro _ ⟨y, hy, rfl⟩
      obtain ⟨i, hyi⟩ := Set.mem_iUnion.mp hy
      refine (minv_le _ i).trans ?_
      beta_reduce
      rw [hi i]
      exact csInf_le (bddBelow_dists (S i) x) ⟨y, hyi, rfl⟩
  refine ⟨?_, out⟩
  by_cases hx : x ∈ ⋃ i, S i
  · refine le_minv fun i => ?_
    rw [signedDist, distTo_self hx, zero_sub]
    by_cases hxi : x ∈ S i
    · rw [signedDist, distTo_self hxi, zero_sub]
      exact neg_le_neg (distTo_anti (Set.compl_subset_compl.mpr (hsub i)) hc x)
    · have : x ∈ (S i)ᶜ := hxi
      rw [signedDist, distTo_self this, sub_zero]
      linarith [distTo_nonneg (S i) x, distTo_nonneg (⋃ i, S i)ᶜ x]
  · exact (out hx).le

/-! ### Point clouds -/

/-- Volume of a ball in the plane or in space. -/
noncomputable def Spec.ballVolume (dim : ℕ) (r : ℝ) : ℝ := if dim = 2 then Real.pi * r ^ 2 else 4 / 3 * Real.pi * r ^ 3

/-- The radius given to a point makes its ball as large as its reference volume: exactly in space, too large by π 1e-12 in
the plane. -/
theorem cloud_radius_volume {V : ℝ} (hV : 0 ≤ V) :
    ballVolume 2 (cloudRadius realFns Real.pi 2 V) = V + Real.pi / 10 ^ 12 ∧
    ballVolume 3 (cloudRadius realFns Real.pi 3 V) = V := by
  have hpi := Real.pi_pos
  constructor
  · simp only [ballVolume, cloudRadius, if_true, realFns_sqrt]
    rw [Real.sq_sqrt (by positivity)]
    field_simp
  · have h3 : (3 : ℕ) ≠ 2 := by norm_num
    simp only [ballVolume, cloudRadius, if_neg h3, realFns_pow]
    have hx : 0 ≤ 3 * V / (4 * Real.pi) := by positivity
    rw [← Real.rpow_natCast (_ ^ (1 / 3 : ℝ)) 3, ← Real.rpow_mul hx]
    norm_num
    field_simp

example : ballVolume 3 (cloudRadius realFns Real.pi 3 (1 / 8)) = 1 / 8 := (cloud_radius_volume (by norm_num)).2

theorem cloudRadius_nonneg {V : ℝ} (hV : 0 ≤ V) (dim : ℕ) : 0 ≤ cloudRadius realFns Real.pi dim V := by
  have hpi := Real.pi_pos
  unfold cloudRadius
  split_ifs
  · exact Real.sqrt_nonneg _
  · exact Real.rpow_nonneg (by positivity) _

theorem balls_miss {m : ℕ} (c : Fin (m + 1) → Fin (n + 1) → ℝ) (r : Fin (m + 1) → ℝ) : (⋃ i, ball (c i) (r i))ᶜ.Nonempty := by
  refine ⟨fun _ => 1 + ∑ i, (|c i 0| + |r i|), fun hx => ?_⟩
  obtain ⟨i, hi⟩ := Set.mem_iUnion.mp hx
  have h1 : eDist _ (c i) ≤ r i := hi
  have h2 := eDist_coord (fun _ : Fin (n + 1) => 1 + ∑ i, (|c i 0| + |r i|)) (c i) 0
  have h3 := Finset.single_le_sum (f := fun i => |c i 0| + |r i|) (fun i _ => by positivity) (Finset.mem_univ i)
  beta_reduce at h2 h3
  have h4 := le_abs_self (1 + ∑ i, (|c i 0| + |r i|) - c i 0)
  have h5 := le_abs_self (c i 0)
  have h6 := le_abs_self (r i)
  linarith

/-- **C76**: with `smooth_k = 0` the reported distance is that of the union of the balls of the points outside of it, and
inside it never exceeds the true depth. -/
theorem cloud_union {m : ℕ} {smooth : ℝ} (hs : smooth ≤ 1 / 1000) (position : Fin (m + 1) → Fin (n + 1) → ℝ)
    {volume0 : Fin (m + 1) → ℝ} (hV : ∀ i, 0 ≤ volume0 i) (x : Fin (n + 1) → ℝ) :
    let solid := ⋃ i, ball (position i) (cloudRadius realFns Real.pi (n + 1) (volume0 i))
    let code := cloudDist realFns Real.pi smooth position volume0 x
    signedDist solid x ≤ code ∧ (x ∉ solid → code = signedDist solid x) ∧ (x ∈ solid ↔ code ≤ 0) := by
  intro solid code
  have hcode : code = minv fun i => signedDist (ball (position i) (cloudRadius realFns Real.pi (n + 1) (volume0 i))) x := by
    change cloudDist realFns Real.pi smooth position volume0 x = _
    rw [cloudDist, if_neg (not_lt.mpr hs)]
    congr 1
    funext i
    rw [signedDist_ball _ (cloudRadius_nonneg (hV i) _), norm2_eDist]
    have := eDist_shift x (position i) (position i)
    simp only [sub_self] at this
    rw [this]
  have hU := signedDist_union (S := fun i => ball (position i) (cloudRadius realFns Real.pi (n + 1) (volume0 i)))
    (fun i => ⟨position i, by
      change eDist _ _ ≤ _
      rw [eDist_self]; exact cloudRadius_nonneg (hV i) _⟩) (balls_miss _ _) x
  rw [← hcode] at hU
  refine ⟨hU.1, fun h => (hU.2 h).symm, ?_⟩
  rw [Set.mem_iUnion, hcode]
  have hmem : ∀ i, x ∈ ball (position i) (cloudRadius realFns Real.pi (n + 1) (volume0 i)) ↔
      signedDist (ball (position i) (cloudRadius realFns Real.pi (n + 1) (volume0 i))) x ≤ 0 := by
    intro i
    rw [signedDist_ball _ (cloudRadius_nonneg (hV i) _), sub_nonpos]
    rfl
  constructor
  · rintro ⟨i, hi⟩
    exact (minv_le _ i).trans ((hmem i).mp hi)
  · intro h
    obtain ⟨i, hi⟩ := exists_minv fun i => signedDist (ball (position i) (cloudRadius realFns Real.pi (n + 1) (volume0 i))) x
    rw [hi] at h
    exact ⟨i, (hmem i).mpr h⟩

/-- Two points of volume 1/10 in the plane. -/
example (x : Fin 2 → ℝ) := cloud_union (smooth := 0) (by norm_num) (![![0, 0], ![1, 0]] : Fin (1 + 1) → Fin (1 + 1) → ℝ)
  (volume0 := fun _ => 1 / 10) (fun _ => by norm_num) x

/-- **C76**: smoothing only lowers the reported distance, by at most `log (number of points) / smooth_k`. -/
theorem cloud_smooth_partial {m : ℕ} {smooth : ℝ} (hs : 1 / 1000 < smooth) (position : Fin (m + 1) → Fin n → ℝ)
    (volume0 : Fin (m + 1) → ℝ) (x : Fin n → ℝ) :
    let sharp := cloudDist realFns Real.pi 0 position volume0 x
    let code := cloudDist realFns Real.pi smooth position volume0 x
    code ≤ sharp ∧ sharp - Real.log (m + 1 : ℕ) / smooth ≤ code := by
  intro sharp code
  have hk : 0 < smooth := by linarith
  set d : Fin (m + 1) → ℝ := fun i => norm2 realFns (fun a => x a - position i a) - cloudRadius realFns Real.pi n (volume0 i)
    with hd
  have hsharp : sharp = minv d := by
    change cloudDist realFns Real.pi 0 position volume0 x = _
    rw [cloudDist, if_neg (by norm_num)]
  have hcode : code = -Real.log (∑ i, Real.exp (-smooth * d i)) / smooth := by
    change cloudDist realFns Real.pi smooth position volume0 x = _
    rw [cloudDist, if_pos hs]
    rfl
  have hpos : 0 < ∑ i, Real.exp (-smooth * d i) := Finset.sum_pos (fun i _ => Real.exp_pos _) ⟨0, Finset.mem_univ 0⟩
  obtain ⟨i0, hi0⟩ := exists_minv d
  have hlow : Real.exp (-smooth * minv d) ≤ ∑ i, Real.exp (-smooth * d i) := by
    rw [hi0]
    exact Finset.single_le_sum (f := fun i => Real.exp (-smooth * d i)) (fun i _ => (Real.exp_pos _).le) (Finset.mem_univ i0)
  have hup : ∑ i, Real.exp (-smooth * d i) ≤ (m + 1 : ℕ) * Real.exp (-smooth * minv d) := by
    have := Finset.sum_le_card_nsmul Finset.univ (fun i => Real.exp (-smooth * d i)) (Real.exp (-smooth * minv d))
      fun i _ => Real.exp_le_exp.mpr (by nlinarith [minv_le d i])
    simpa using this
  have l1 := Real.log_le_log (Real.exp_pos _) hlow
  have l2 := Real.log_le_log hpos hup
  have hm : ((m + 1 : ℕ) : ℝ) ≠ 0 := by positivity
  rw [Real.log_exp] at l1
  rw [Real.log_mul hm (Real.exp_pos _).ne', Real.log_exp] at l2
  rw [hsharp, hcode]
  constructor
  · rw [div_le_iff₀ hk]; linarith
  · rw [le_div_iff₀ hk, sub_mul, div_mul_cancel₀ _ hk.ne']; linarith

example (x : Fin 2 → ℝ) := cloud_smooth_partial (smooth := 50) (by norm_num) (![![0, 0], ![1, 0]] : Fin (1 + 1) → Fin 2 → ℝ)
  (fun _ => 1 / 10) x

/-- **C76** (refuted): with smoothing, a point outside all balls by up to `D` is reported inside as soon as there are
`exp (smooth_k D)` points that close. -/
theorem cloud_smooth_false_inside {m : ℕ} {smooth D : ℝ} (hs : 1 / 1000 < smooth) (position : Fin (m + 1) → Fin n → ℝ)
    (volume0 : Fin (m + 1) → ℝ) (x : Fin n → ℝ)
    (hD : ∀ i, norm2 realFns (fun a => x a - position i a) - cloudRadius realFns Real.pi n (volume0 i) ≤ D)
    (hm : Real.exp (smooth * D) < (m + 1 : ℕ)) : cloudDist realFns Real.pi smooth position volume0 x < 0 := by
  have hk : 0 < smooth := by linarith
  rw [cloudDist, if_pos hs, neg_div, neg_neg_iff_pos]
  refine div_pos (Real.log_pos ?_) hk
  have h := Finset.card_nsmul_le_sum Finset.univ
    (fun i => Real.exp (-smooth * (norm2 realFns (fun a => x a - position i a) - cloudRadius realFns Real.pi n (volume0 i))))
    (Real.exp (-(smooth * D))) fun i _ => Real.exp_le_exp.mpr (by nlinarith [hD i])
  rw [Finset.card_univ, Fintype.card_fin, nsmul_eq_mul] at h
  refine lt_of_lt_of_le ?_ h
  rw [Real.exp_neg, ← div_eq_mul_inv, lt_div_iff₀ (Real.exp_pos _), one_mul]
  exact hm

/-- With the default `smooth_k = 2`, eight points of radius about zero at the corners of a square (two at each) are
reported to contain its centre, at distance 1 from all of them. -/
example : cloudDist realFns Real.pi 2
    (![![1, 0], ![1, 0], ![-1, 0], ![-1, 0], ![0, 1], ![0, 1], ![0, -1], ![0, -1]] : Fin (7 + 1) → Fin 2 → ℝ) (fun _ => 0)
    (fun _ => 0) < 0 := by
  refine cloud_smooth_false_inside (D := 1) (by norm_num) _ _ _ ?_ ?_
  · intro i
    have hr := cloudRadius_nonneg (le_refl (0 : ℝ)) 2
    have : norm2 realFns (fun a => (0 : ℝ) - (![![1, 0], ![1, 0], ![-1, 0], ![-1, 0], ![0, 1], ![0, 1], ![0, -1], ![0, -1]] :
        Fin (7 + 1) → Fin 2 → ℝ) i a) = 1 := by
      fin_cases i <;> simp [norm2, Fin.sum_univ_two]
    rw [this]; linarith
  · have h := Real.exp_one_lt_d9
    have h2 : Real.exp (2 * 1) = Real.exp 1 * Real.exp 1 := by rw [← Real.exp_add]; norm_num
    rw [h2]
    have h0 := Real.exp_pos 1
    push_cast
    nlinarith

end

/-! ### Tables -/

section
variable {K : Type*} [Field K] [LinearOrder K] [IsStrictOrderedRing K] [FloorRing K]

/-- Interpolation along one axis. -/
def axisAvg (n : ℕ) (c : K) (f : ℤ → K) : K := ((axisNodes n c).map fun (i : ℤ × K) => i.2 * f i.1).sum

theorem axisAvg_eq (n : ℕ) (c : K) (f : ℤ → K) :
    axisAvg n c f = (1 - Int.fract c) * f (max 0 (min ⌊c⌋ (n - 1))) + Int.fract c * f (max 0 (min (⌊c⌋ + 1) (n - 1))) := by
  simp only [axisAvg, axisNodes, List.map_cons, List.map_nil, List.sum_cons, List.sum_nil, add_zero, Int.self_sub_floor]

theorem mapCoordinates_eq (res : Fin 3 → ℕ) (data : (Fin 3 → ℤ) → K) (c : Fin 3 → K) :
    mapCoordinates res data c = axisAvg (res 0) (c 0) fun i => axisAvg (res 1) (c 1) fun j => axisAvg (res 2) (c 2) fun k =>
      data ![i, j, k] := rfl

theorem axis_clip_mem {n : ℕ} (hn : 0 < n) (i : ℤ) : 0 ≤ max 0 (min i ((n : ℤ) - 1)) ∧ max 0 (min i ((n : ℤ) - 1)) < n := by
  omega

theorem axisAvg_between {n : ℕ} (hn : 0 < n) (c : K) {f : ℤ → K} {A B : K} (h : ∀ i : ℤ, 0 ≤ i → i < n → A ≤ f i ∧ f i ≤ B) :
    A ≤ axisAvg n c f ∧ axisAvg n c f ≤ B := by
  rw [axisAvg_eq]
  have h1 := h _ (axis_clip_mem hn ⌊c⌋).1 (axis_clip_mem hn ⌊c⌋).2
  have h2 := h _ (axis_clip_mem hn (⌊c⌋ + 1)).1 (axis_clip_mem hn (⌊c⌋ + 1)).2
  have f0 := Int.fract_nonneg c
  have f1 := (Int.fract_lt_one c).le
  constructor <;> nlinarith

theorem axisAvg_congr {n : ℕ} (hn : 0 < n) (c : K) {f g : ℤ → K} (h : ∀ i : ℤ, 0 ≤ i → i < n → f i = g i) :
    axisAvg n c f = axisAvg n c g := by
  rw [axisAvg_eq, axisAvg_eq, h _ (axis_clip_mem hn ⌊c⌋).1 (axis_clip_mem hn ⌊c⌋).2,
    h _ (axis_clip_mem hn (⌊c⌋ + 1)).1 (axis_clip_mem hn (⌊c⌋ + 1)).2]

theorem axisAvg_affine {n : ℕ} {c : K} (h0 : 0 ≤ c) (h1 : c ≤ (n : K) - 1) (b g : K) :
    axisAvg n c (fun i => b + g * i) = b + g * c := by
  have hf0 : 0 ≤ ⌊c⌋ := Int.floor_nonneg.mpr h0
  have hf1 : ⌊c⌋ ≤ (n : ℤ) - 1 := by
    rw [← Int.cast_le (R := K)]
    push_cast
    exact (Int.floor_le c).trans h1
  have hc : c = ⌊c⌋ + Int.fract c := (Int.floor_add_fract c).symm
  rw [axisAvg_eq, min_eq_left hf1, max_eq_right hf0]
  rcases eq_or_lt_of_le hf1 with he | hlt
  · have hfr : Int.fract c = 0 := by
      have : c ≤ ⌊c⌋ := by rw [he]; push_cast; exact h1
      rw [Int.fract]
      linarith [Int.floor_le c]
    rw [hfr] at hc ⊢
    rw [add_zero] at hc
    rw [← hc]; ring
  · rw [min_eq_left (by omega), max_eq_right (by omega)]
    push_cast
    linear_combination (-g) * hc

theorem axisAvg_clip {n : ℕ} (hn : 0 < n) (c : K) (f : ℤ → K) :
    axisAvg n c f = axisAvg n (max 0 (min c ((n : K) - 1))) f := by
  have hn' : (1 : K) ≤ n := by exact_mod_cast hn
  rcases lt_or_ge c 0 with hneg | hpos
  · rw [min_eq_left (by linarith), max_eq_left hneg.le, axisAvg_eq, axisAvg_eq]
    have hf : ⌊c⌋ ≤ -1 := by
      have := Int.floor_lt (a := c) (z := 0)
      push_cast at this
      have := this.mpr hneg
      omega
    have e1 : max 0 (min ⌊c⌋ ((n : ℤ) - 1)) = 0 := by omega
    have e2 : max 0 (min (⌊c⌋ + 1) ((n : ℤ) - 1)) = 0 := by omega
    have e3 : max 0 (min (0 : ℤ) ((n : ℤ) - 1)) = 0 := by omega
    rw [e1, e2, Int.fract_zero, Int.floor_zero, e3]; ring
  · rcases le_or_gt c ((n : K) - 1) with hle | hgt
    · rw [min_eq_left hle, max_eq_right hpos]
    · rw [min_eq_right hgt.le, max_eq_right (by linarith), axisAvg_eq, axisAvg_eq]
      have hf : (n : ℤ) - 1 ≤ ⌊c⌋ := by
        rw [Int.le_floor]; push_cast; exact hgt.le
      have e1 : max 0 (min ⌊c⌋ ((n : ℤ) - 1)) = n - 1 := by omega
      have e2 : max 0 (min (⌊c⌋ + 1) ((n : ℤ) - 1)) = n - 1 := by omega
      have e4 : ((n : K) - 1) = (((n : ℤ) - 1 : ℤ) : K) := by push_cast; ring
      have e3 : max 0 (min ((n : ℤ) - 1) ((n : ℤ) - 1)) = (n : ℤ) - 1 := by omega
      rw [e1, e2, e4, Int.fract_intCast, Int.floor_intCast, e3]; ring

/-- **C77**: the reported distance stays within the range of the (scaled, offset) table. -/
theorem table_between (g : GridTable K) (hr : ∀ a, 0 < g.res a) (hs : 0 ≤ g.scale) {A B : K}
    (h : ∀ i : Fin 3 → ℤ, (∀ a, 0 ≤ i a ∧ i a < g.res a) → A ≤ g.data i ∧ g.data i ≤ B) (p : Fin 3 → K) :
    A * g.scale - g.thickness ≤ g.dist p ∧ g.dist p ≤ B * g.scale - g.thickness := by
  have key : A ≤ mapCoordinates g.res g.data (g.coords p) ∧ mapCoordinates g.res g.data (g.coords p) ≤ B := by
    rw [mapCoordinates_eq]
    refine axisAvg_between (hr 0) _ fun i i0 i1 => axisAvg_between (hr 1) _ fun j j0 j1 =>
      axisAvg_between (hr 2) _ fun k k0 k1 => h _ fun a => ?_
    fin_cases a
    · exact ⟨i0, i1⟩
    · exact ⟨j0, j1⟩
    · exact ⟨k0, k1⟩
  unfold GridTable.dist
  constructor <;> nlinarith [key.1, key.2]

/-- A point of the table in the unscaled local frame. -/
def Spec.tablePoint (g : GridTable K) (i : Fin 3 → ℤ) : Fin 3 → K :=
  fun a => g.lo a + i a * (g.size a / ((g.res a : K) - 1))

/-- **C77**: a table of samples of a linear function (the distance to a plane) gives that function back inside the table,
scaled and offset, up to the regularisation 1e-12 of the box size. -/
theorem table_affine (g : GridTable K) (hr : ∀ a, 2 ≤ g.res a) (hs : 0 < g.scale) (hsz : ∀ a, 0 < g.size a) (b : K)
    (G : Fin 3 → K) (h : ∀ i : Fin 3 → ℤ, (∀ a, 0 ≤ i a ∧ i a < g.res a) → g.data i = b + ∑ a, G a * tablePoint g i a)
    (p : Fin 3 → K) (hp : ∀ a, g.lo a * g.scale ≤ p a ∧ p a ≤ (g.lo a + g.size a) * g.scale) :
    |g.dist p - (g.scale * (b + ∑ a, G a * (p a / g.scale)) - g.thickness)| ≤ g.scale * (∑ a, |G a|) / 10 ^ 12 := by
  have hq : ∀ a, g.lo a ≤ p a / g.scale ∧ p a / g.scale ≤ g.lo a + g.size a := fun a =>
    ⟨(le_div_iff₀ hs).mpr (hp a).1, (div_le_iff₀ hs).mpr (hp a).2⟩
  have hr1 : ∀ a, (0 : K) < (g.res a : K) - 1 := by
    intro a
    have : (2 : K) ≤ g.res a := by exact_mod_cast hr a
    linarith
  have hden : ∀ a, 0 < g.size a + 1 / 10 ^ 12 := fun a => by have := hsz a; positivity
  have hc0 : ∀ a, 0 ≤ g.coords p a := fun a => by
    unfold GridTable.coords
    exact mul_nonneg (div_nonneg (by linarith [(hq a).1]) (hden a).le) (hr1 a).le
  have hc1 : ∀ a, g.coords p a ≤ (g.res a : K) - 1 := fun a => by
    unfold GridTable.coords
    refine mul_le_of_le_one_left (hr1 a).le ?_
    rw [div_le_one (hden a)]
    have : (0 : K) < 1 / 10 ^ 12 := by positivity
    linarith [(hq a).2]
  have hpos : ∀ a, 0 < g.res a := fun a => lt_of_lt_of_le two_pos (hr a)
  set δ : Fin 3 → K := fun a => g.size a / ((g.res a : K) - 1) with hδ
  have hval : mapCoordinates g.res g.data (g.coords p) =
      b + ∑ a, G a * (g.lo a + g.coords p a * δ a) := by
    rw [mapCoordinates_eq]
    have e : ∀ i j k : ℤ, 0 ≤ i → i < g.res 0 → 0 ≤ j → j < g.res 1 → 0 ≤ k → k < g.res 2 → g.data ![i, j, k] =
        (b + G 0 * (g.lo 0 + i * δ 0) + G 1 * (g.lo 1 + j * δ 1) + G 2 * g.lo 2) + G 2 * δ 2 * k := by
      intro i j k i0 i1 j0 j1 k0 k1
      rw [h ![i, j, k] fun a => by
        fin_cases a
        · exact ⟨i0, i1⟩
        · exact ⟨j0, j1⟩
        · exact ⟨k0, k1⟩]
      simp only [Fin.sum_univ_three, tablePoint, hδ, Matrix.cons_val_zero, Matrix.cons_val_one, Matrix.cons_val]
      ring
    rw [axisAvg_congr (hpos 0) (c := g.coords p 0) (g := fun i => (b + G 0 * g.lo 0 + G 1 * (g.lo 1 + g.coords p 1 * δ 1) +
        G 2 * (g.lo 2 + g.coords p 2 * δ 2)) + G 0 * δ 0 * i) fun i i0 i1 => ?_]
    · rw [axisAvg_affine (hc0 0) (hc1 0), Fin.sum_univ_three]
      ring
    · rw [axisAvg_congr (hpos 1) (c := g.coords p 1) (g := fun j => (b + G 0 * (g.lo 0 + i * δ 0) + G 1 * g.lo 1 +
          G 2 * (g.lo 2 + g.coords p 2 * δ 2)) + G 1 * δ 1 * j) fun j j0 j1 => ?_]
      · rw [axisAvg_affine (hc0 1) (hc1 1)]
        ring
      · rw [axisAvg_congr (hpos 2) (c := g.coords p 2) fun k k0 k1 => e i j k i0 i1 j0 j1 k0 k1,
          axisAvg_affine (hc0 2) (hc1 2)]
        ring
  have hdiff : g.dist p - (g.scale * (b + ∑ a, G a * (p a / g.scale)) - g.thickness) =
      g.scale * ∑ a, G a * (g.lo a + g.coords p a * δ a - p a / g.scale) := by
    have e : ∑ a, G a * (g.lo a + g.coords p a * δ a - p a / g.scale) =
        ∑ a, G a * (g.lo a + g.coords p a * δ a) - ∑ a, G a * (p a / g.scale) := by
      rw [← Finset.sum_sub_distrib]
      exact Finset.sum_congr rfl fun a _ => by ring
    rw [GridTable.dist, hval, e]; ring
  have hsmall : ∀ a, |g.lo a + g.coords p a * δ a - p a / g.scale| ≤ 1 / 10 ^ 12 := by
    intro a
    set u := p a / g.scale - g.lo a with hu
    have hu0 : 0 ≤ u := by linarith [(hq a).1]
    have hu1 : u ≤ g.size a := by linarith [(hq a).2]
    have hE : (0 : K) < 1 / 10 ^ 12 := by positivity
    have e : g.lo a + g.coords p a * δ a - p a / g.scale = -(u / (g.size a + 1 / 10 ^ 12) * (1 / 10 ^ 12)) := by
      have h1 := (hr1 a).ne'
      have h2 := (hden a).ne'
      have e1 : g.coords p a * δ a = u / (g.size a + 1 / 10 ^ 12) * g.size a := by
        simp only [GridTable.coords, hδ, ← hu]
        field_simp
      have e2 : u / (g.size a + 1 / 10 ^ 12) * g.size a = u - u / (g.size a + 1 / 10 ^ 12) * (1 / 10 ^ 12) := by
        rw [eq_sub_iff_add_eq, ← mul_add, div_mul_cancel₀ _ h2]
      rw [e1, e2, hu]; ring
    rw [e, abs_neg, abs_of_nonneg (mul_nonneg (div_nonneg hu0 (hden a).le) hE.le)]
    refine mul_le_of_le_one_left hE.le ?_
    rw [div_le_one (hden a)]; linarith
  rw [hdiff, abs_mul, abs_of_pos hs, mul_div_assoc]
  refine mul_le_mul_of_nonneg_left ?_ hs.le
  refine (Finset.abs_sum_le_sum_abs _ _).trans ?_
  rw [Finset.sum_div]
  refine Finset.sum_le_sum fun a _ => ?_
  rw [abs_mul, div_eq_mul_one_div |G a|]
  exact mul_le_mul_of_nonneg_left (hsmall a) (abs_nonneg _)

/-- **C77**: outside the table the value is that of the closest point of the box (enlarged by the regularisation 1e-12). -/
theorem table_outside (g : GridTable K) (hr : ∀ a, 2 ≤ g.res a) (hs : 0 < g.scale) (hsz : ∀ a, 0 < g.size a)
    (p : Fin 3 → K) :
    g.dist p = g.dist fun a => max (g.lo a * g.scale) (min (p a) ((g.lo a + (g.size a + 1 / 10 ^ 12)) * g.scale)) := by
  have hr1 : ∀ a, (0 : K) < (g.res a : K) - 1 := by
    intro a
    have : (2 : K) ≤ g.res a := by exact_mod_cast hr a
    linarith
  have hden : ∀ a, 0 < g.size a + 1 / 10 ^ 12 := fun a => by have := hsz a; positivity
  have hpos : ∀ a, 0 < g.res a := fun a => lt_of_lt_of_le two_pos (hr a)
  have hmono : ∀ a, ∀ u v : K, u ≤ v → (u / g.scale - g.lo a) / (g.size a + 1 / 10 ^ 12) * ((g.res a : K) - 1) ≤
      (v / g.scale - g.lo a) / (g.size a + 1 / 10 ^ 12) * ((g.res a : K) - 1) := by
    intro a u v huv
    refine mul_le_mul_of_nonneg_right ?_ (hr1 a).le
    refine div_le_div_of_nonneg_right ?_ (hden a).le
    linarith [div_le_div_of_nonneg_right huv hs.le]
  have hcl : ∀ a, (g.coords fun a => max (g.lo a * g.scale) (min (p a) ((g.lo a + (g.size a + 1 / 10 ^ 12)) * g.scale))) a =
      max 0 (min (g.coords p a) ((g.res a : K) - 1)) := by
    intro a
    have hm : Monotone fun u : K => (u / g.scale - g.lo a) / (g.size a + 1 / 10 ^ 12) * ((g.res a : K) - 1) :=
      fun u v huv => hmono a u v huv
    have e0 : (g.lo a * g.scale / g.scale - g.lo a) / (g.size a + 1 / 10 ^ 12) * ((g.res a : K) - 1) = 0 := by
      rw [mul_div_cancel_right₀ _ hs.ne', sub_self, zero_div, zero_mul]
    have e1 : ((g.lo a + (g.size a + 1 / 10 ^ 12)) * g.scale / g.scale - g.lo a) / (g.size a + 1 / 10 ^ 12) *
        ((g.res a : K) - 1) = (g.res a : K) - 1 := by
      rw [mul_div_cancel_right₀ _ hs.ne', add_sub_cancel_left, div_self (hden a).ne', one_mul]
    have h1 := hm.map_max (a := g.lo a * g.scale) (b := min (p a) ((g.lo a + (g.size a + 1 / 10 ^ 12)) * g.scale))
    have h2 := hm.map_min (a := p a) (b := (g.lo a + (g.size a + 1 / 10 ^ 12)) * g.scale)
    beta_reduce at h1 h2
    rw [e1] at h2
    rw [e0, h2] at h1
    exact h1
  unfold GridTable.dist
  rw [mapCoordinates_eq, mapCoordinates_eq, hcl 0, hcl 1, hcl 2, axisAvg_clip (hpos 0)]
  congr 3
  funext i
  rw [axisAvg_clip (hpos 1)]
  congr 1
  funext j
  rw [axisAvg_clip (hpos 2)]

/-- **C77**: `scale` scales the obstacle about its origin and `thickness` grows it. -/
theorem table_scale (g : GridTable K) {c : K} (hc : c ≠ 0) (d : K) (p : Fin 3 → K) :
    ({ g with scale := c * g.scale, thickness := c * g.thickness } : GridTable K).dist (fun a => c * p a) = c * g.dist p ∧
    ({ g with thickness := g.thickness + d } : GridTable K).dist p = g.dist p - d := by
  constructor
  · have e : ({ g with scale := c * g.scale, thickness := c * g.thickness } : GridTable K).coords (fun a => c * p a) =
        g.coords p := by
      funext a
      simp only [GridTable.coords]
      rw [mul_div_mul_left _ _ hc]
    unfold GridTable.dist
    rw [e]
    dsimp only
    ring
  · unfold GridTable.dist
    have e : ({ g with thickness := g.thickness + d } : GridTable K).coords p = g.coords p := rfl
    rw [e]
    dsimp only
    ring

theorem axisAvg_ge {n : ℕ} (hn : 0 < n) (c : K) {f : ℤ → K} {A : K} (P : ℤ → Prop)
    (hP : ∀ i : ℤ, 0 ≤ i → i < n → (c ≤ 0 → i = 0) → ((n : K) - 1 ≤ c → i = n - 1) → P i)
    (h : ∀ i : ℤ, P i → A ≤ f i) : A ≤ axisAvg n c f := by
  have hn' : (1 : K) ≤ n := by exact_mod_cast hn
  have ends : ∀ i : ℤ, axisAvg n (i : K) f = f (max 0 (min i (n - 1))) := by
    intro i
    rw [axisAvg_eq, Int.fract_intCast, Int.floor_intCast]; ring
  by_cases h0 : c ≤ 0
  · rw [axisAvg_clip hn, min_eq_left (by linarith), max_eq_left h0]
    have := ends 0
    rw [Int.cast_zero] at this
    rw [this, show max 0 (min (0 : ℤ) (n - 1)) = 0 by omega]
    refine h 0 (hP 0 le_rfl (by omega) (fun _ => rfl) fun hc => ?_)
    have : (n : K) ≤ 1 := by linarith
    have : n ≤ 1 := by exact_mod_cast this
    omega
  · by_cases h1 : (n : K) - 1 ≤ c
    · rw [axisAvg_clip hn, min_eq_right h1, max_eq_right (by linarith)]
      have := ends ((n : ℤ) - 1)
      push_cast at this
      rw [this, show max 0 (min ((n : ℤ) - 1) (n - 1)) = (n : ℤ) - 1 by omega]
      exact h _ (hP _ (by omega) (by omega) (fun hc => absurd hc h0) fun _ => rfl)
    · rw [axisAvg_eq]
      have hm : ∀ i : ℤ, A ≤ f (max 0 (min i (n - 1))) := fun i =>
        h _ (hP _ (axis_clip_mem hn i).1 (axis_clip_mem hn i).2 (fun hc => absurd hc h0) fun hc => absurd hc h1)
      have f0 := Int.fract_nonneg c
      have f1 := (Int.fract_lt_one c).le
      nlinarith [hm ⌊c⌋, hm (⌊c⌋ + 1)]

/-- A position of the table on one of its outer faces. -/
def Spec.OnFace (g : GridTable K) (i : Fin 3 → ℤ) : Prop :=
  (∀ a, 0 ≤ i a ∧ i a < g.res a) ∧ ∃ a, i a = 0 ∨ i a = g.res a - 1

/-- **C77**: if the outer faces of the table lie outside the solid, thickness included, then the box that the obstacle
reports contains the solid. -/
theorem table_box_contains (g : GridTable K) (hr : ∀ a, 2 ≤ g.res a) (hs : 0 < g.scale) (hsz : ∀ a, 0 < g.size a)
    (ht : g.scale / 10 ^ 12 ≤ g.thickness) {m : K} (hface : ∀ i, OnFace g i → m ≤ g.data i) (hm : g.thickness < m * g.scale)
    {p : Fin 3 → K} (hp : g.dist p ≤ 0) : ∀ a, g.bounds.1 a ≤ p a ∧ p a ≤ g.bounds.2 a := by
  have ht0 : 0 < g.thickness := lt_of_lt_of_le (by positivity) ht
  have hr1 : ∀ a, (0 : K) < (g.res a : K) - 1 := by
    intro a
    have : (2 : K) ≤ g.res a := by exact_mod_cast hr a
    linarith
  have hden : ∀ a, 0 < g.size a + 1 / 10 ^ 12 := fun a => by have := hsz a; positivity
  by_contra hcon
  push Not at hcon
  obtain ⟨a, ha⟩ := hcon
  -- the table coordinate along `a` is beyond an end
  have hend : g.coords p a ≤ 0 ∨ (g.res a : K) - 1 ≤ g.coords p a := by
    by_cases h1 : g.bounds.1 a ≤ p a
    · right
      have h2 := ha h1
      simp only [GridTable.bounds] at h2
      have h3 : (g.lo a + (g.size a + 1 / 10 ^ 12)) * g.scale ≤ p a := by
        have : (g.lo a + (g.size a + 1 / 10 ^ 12)) * g.scale = (g.lo a + g.size a) * g.scale + g.scale / 10 ^ 12 := by ring
        linarith
      unfold GridTable.coords
      have h4 : 1 ≤ (p a / g.scale - g.lo a) / (g.size a + 1 / 10 ^ 12) := by
        rw [one_le_div (hden a), le_sub_iff_add_le, le_div_iff₀ hs]
        linarith
      nlinarith [hr1 a]
    · left
      push Not at h1
      simp only [GridTable.bounds] at h1
      unfold GridTable.coords
      have h3 : p a / g.scale - g.lo a ≤ 0 := by
        rw [sub_nonpos, div_le_iff₀ hs]
        linarith
      exact mul_nonpos_of_nonpos_of_nonneg (div_nonpos_of_nonpos_of_nonneg h3 (hden a).le) (hr1 a).le
  have key : m ≤ mapCoordinates g.res g.data (g.coords p) := by
    rw [mapCoordinates_eq]
    let P : Fin 3 → ℤ → Prop := fun b i => 0 ≤ i ∧ i < g.res b ∧ (g.coords p b ≤ 0 → i = 0) ∧
      ((g.res b : K) - 1 ≤ g.coords p b → i = g.res b - 1)
    have hpos : ∀ b, 0 < g.res b := fun b => lt_of_lt_of_le two_pos (hr b)
    refine axisAvg_ge (hpos 0) _ (P 0) (fun i h1 h2 h3 h4 => ⟨h1, h2, h3, h4⟩) fun i hi => ?_
    refine axisAvg_ge (hpos 1) _ (P 1) (fun i h1 h2 h3 h4 => ⟨h1, h2, h3, h4⟩) fun j hj => ?_
    refine axisAvg_ge (hpos 2) _ (P 2) (fun i h1 h2 h3 h4 => ⟨h1, h2, h3, h4⟩) fun k hk => ?_
    have hall : ∀ b, P b ((![i, j, k] : Fin 3 → ℤ) b) := by
      intro b
      fin_cases b
      · exact hi
      · exact hj
      · exact hk
    refine hface _ ⟨fun b => ⟨(hall b).1, (hall b).2.1⟩, a, ?_⟩
    rcases hend with h | h
    · exact .inl ((hall a).2.2.1 h)
    · exact .inr ((hall a).2.2.2 h)
  unfold GridTable.dist at hp
  nlinarith

/-- A table around a small solid: `-1` at the centre, `1` elsewhere. -/
def exTableBall : GridTable ℚ :=
  { res := fun _ => 3, data := fun i => if i = ![1, 1, 1] then -1 else 1, lo := fun _ => 0, size := fun _ => 1
    thickness := 1 / 100, scale := 2 }

set_option maxRecDepth 100000 in
theorem exTableBall_inside : exTableBall.dist ![1, 1, 1] ≤ 0 := by decide +kernel

example : ∀ a, exTableBall.bounds.1 a ≤ (![1, 1, 1] : Fin 3 → ℚ) a ∧ (![1, 1, 1] : Fin 3 → ℚ) a ≤ exTableBall.bounds.2 a :=
  table_box_contains exTableBall (fun _ => by norm_num [exTableBall]) (by norm_num [exTableBall]) (fun _ => by norm_num [exTableBall])
    (by norm_num [exTableBall]) (m := 1) (by
      rintro i ⟨-, a, h⟩
      have : i ≠ ![1, 1, 1] := by
        rintro rfl
        fin_cases a <;> simp [exTableBall] at h
      simp [exTableBall, this]) (by norm_num [exTableBall]) exTableBall_inside

set_option maxRecDepth 100000 in
/-- Without that condition the reported box does not contain the obstacle: with a thickness of more than the margin of the
table the solid has no end. -/
theorem table_box_fails : ({ exTableBall with thickness := 3 } : GridTable ℚ).dist ![100, 1, 1] ≤ 0 ∧
    ({ exTableBall with thickness := 3 } : GridTable ℚ).bounds.2 0 < 100 := by decide +kernel

/-- A table of the distance to the plane `z = 1/2` on the unit cube. -/
def exTable : GridTable ℚ :=
  { res := fun _ => 3, data := fun i => i 2 / 2 - 1 / 2, lo := fun _ => 0, size := fun _ => 1, thickness := 1 / 100, scale := 2 }

example (p : Fin 3 → ℚ) := table_outside exTable (fun _ => by norm_num [exTable]) (by norm_num [exTable])
  (fun _ => by norm_num [exTable]) p
example (p : Fin 3 → ℚ) := table_scale exTable (c := 3) (by norm_num) (1 / 100) p

/-- It satisfies the hypotheses of `table_affine`. -/
example : ∀ i : Fin 3 → ℤ, (∀ a, 0 ≤ i a ∧ i a < exTable.res a) →
    exTable.data i = -1 / 2 + ∑ a, (![0, 0, 1] : Fin 3 → ℚ) a * tablePoint exTable i a := by
  intro i _
  simp only [exTable, tablePoint, Fin.sum_univ_three, Matrix.cons_val_zero, Matrix.cons_val_one, Matrix.cons_val]
  push_cast
  ring

end
end Hydrax
