import Verif.Model.SdfMore
import Verif.Props.SdfHollow
import Mathlib.Analysis.SpecialFunctions.Complex.Arg

/-!
# The star obstacle reports signed distance (C75)
-/

set_option linter.unusedSectionVars false

namespace Hydrax

open Spec

/-- The real functions: `arctan2` is the argument of a complex number, `round` returns a nearest integer (either one for
ties). -/
def Spec.IsPolar (pf : PolarFns ℝ) : Prop :=
  pf.pi = Real.pi ∧ (∀ y x, pf.atan2 y x = Complex.arg ⟨x, y⟩) ∧ ∀ t, ∃ k : ℤ, pf.rint t = k ∧ |t - k| ≤ 1 / 2

/-- Point at a given distance and angle, measured from the second axis towards the first. -/
noncomputable def Spec.polar (r a : ℝ) : Fin 2 → ℝ := ![r * Real.sin a, r * Real.cos a]

/-- The star with `n` arms: all triangles between the centre, the tip of an arm and a neighbouring valley. Tips are at the
even multiples of `π / n`, valleys at the odd ones. -/
def Spec.star (n : ℕ) (rOut rIn : ℝ) : Set (Fin 2 → ℝ) :=
  {y | ∃ (k l : ℤ) (s t : ℝ), (l = 2 * k + 1 ∨ l = 2 * k - 1) ∧ 0 ≤ s ∧ 0 ≤ t ∧ s + t ≤ 1 ∧
    y = fun a => s * polar rOut (2 * k * (Real.pi / n)) a + t * polar rIn (l * (Real.pi / n)) a}

section

/-- A folding map reduces distances to those within its range. -/
theorem distTo_fold {n : ℕ} {f : (Fin n → ℝ) → Fin n → ℝ} {W : Set (Fin n → ℝ)} (h1 : ∀ x, f x ∈ W)
    (h2 : ∀ x y, eDist (f x) (f y) ≤ eDist x y) (h3 : ∀ x, ∀ q ∈ W, ∃ y, f y = q ∧ eDist x y = eDist (f x) q)
    (Q : Set (Fin n → ℝ)) (x : Fin n → ℝ) : distTo {y | f y ∈ Q} x = distTo (Q ∩ W) (f x) := by
  by_cases hne : (Q ∩ W).Nonempty
  · obtain ⟨q0, hq0, hw0⟩ := hne
    obtain ⟨y0, hy0, -⟩ := h3 x q0 hw0
    apply le_antisymm
    · refine le_csInf ⟨_, q0, ⟨hq0, hw0⟩, rfl⟩ ?_
      rintro _ ⟨q, ⟨hq, hw⟩, rfl⟩
      obtain ⟨y, hy, h⟩ := h3 x q hw
      rw [← h]
      have hy' : y ∈ {y | f y ∈ Q} := by change f y ∈ Q; rw [hy]; exact hq
      exact csInf_le (bddBelow_dists _ _) ⟨y, hy', rfl⟩
    · have hy' : y0 ∈ {y | f y ∈ Q} := by change f y0 ∈ Q; rw [hy0]; exact hq0
      refine le_csInf ⟨_, y0, hy', rfl⟩ ?_
      rintro _ ⟨y, hy, rfl⟩
      exact (csInf_le (bddBelow_dists (Q ∩ W) (f x)) ⟨f y, ⟨hy, h1 y⟩, rfl⟩).trans (h2 x y)
  · have e1 : {y | f y ∈ Q} = ∅ := by
      ext y
      exact ⟨fun hy => hne ⟨f y, hy, h1 y⟩, fun hy => hy.elim⟩
    rw [e1, Set.not_nonempty_iff_eq_empty.mp hne]
    simp [distTo]

/-- The largest cosine between two points of one sector is reached without turning or reflecting. -/
theorem cos_sector {n : ℕ} (hn : 0 < n) {al a b : ℝ} (hal : n * al = Real.pi) (ha0 : 0 ≤ a) (ha : a ≤ al) (hb0 : 0 ≤ b)
    (hb : b ≤ al) {s t : ℝ} (hs : s = 1 ∨ s = -1) (ht : t = 1 ∨ t = -1) (j : ℤ) :
    Real.cos (2 * j * al + s * a - t * b) ≤ Real.cos (a - b) := by
  have hpi := Real.pi_pos
  have hn1 : (1 : ℝ) ≤ n := by exact_mod_cast hn
  have hal0 : 0 < al := by
    by_contra h
    have : (n : ℝ) * al ≤ 0 := mul_nonpos_of_nonneg_of_nonpos (by linarith) (not_lt.mp h)
    linarith
  have halpi : al ≤ Real.pi := by nlinarith
  -- the claim with the angle reduced to at most π
  have key : ∀ i : ℤ, |a - b| ≤ |2 * i * al + s * a - t * b| := by
    have gen : ∀ (i : ℤ) (t : ℝ), (t = 1 ∨ t = -1) → |a - b| ≤ |2 * i * al + a - t * b| := by
      intro i t ht
      have hab : |a - b| ≤ al := abs_le.mpr ⟨by linarith, by linarith⟩
      rcases lt_trichotomy i 0 with hi | hi | hi
      · have hi' : (i : ℝ) ≤ -1 := by exact_mod_cast Int.le_sub_one_of_lt hi
        have hm : 2 * i * al ≤ -2 * al := by nlinarith
        rcases ht with rfl | rfl
        · rw [abs_of_nonpos (by linarith : 2 * i * al + a - 1 * b ≤ 0)]
          linarith
        · rcases lt_or_ge i (-1) with h2 | h2
          · have h2' : (i : ℝ) ≤ -2 := by exact_mod_cast Int.le_sub_one_of_lt h2
            have hm : 2 * i * al ≤ -4 * al := by nlinarith
            rw [abs_of_nonpos (by linarith : 2 * i * al + a - -1 * b ≤ 0)]
            linarith
          · have : i = -1 := by omega
            subst this
            push_cast
            rw [abs_of_nonpos (by linarith : 2 * (-1) * al + a - -1 * b ≤ 0)]
            exact abs_le.mpr ⟨by linarith, by linarith⟩
      · subst hi
        rcases ht with rfl | rfl
        · simp
        · push_cast
          rw [abs_of_nonneg (by linarith : 0 ≤ 2 * 0 * al + a - -1 * b)]
          exact abs_le.mpr ⟨by linarith, by linarith⟩
      · have hi' : (1 : ℝ) ≤ i := by exact_mod_cast hi
        have hm : 2 * al ≤ 2 * i * al := by nlinarith
        rcases ht with rfl | rfl
        · rw [abs_of_nonneg (by linarith : 0 ≤ 2 * i * al + a - 1 * b)]
          linarith
        · rw [abs_of_nonneg (by linarith : 0 ≤ 2 * i * al + a - -1 * b)]
          linarith
    intro i
    rcases hs with rfl | rfl
    · simpa using gen i t ht
    · have := gen (-i) (-t) (by rcases ht with rfl | rfl <;> simp)
      rw [← abs_neg (2 * (i : ℝ) * al + -1 * a - t * b)]
      convert this using 2
      push_cast; ring
  set x := 2 * (j : ℝ) * al + s * a - t * b with hx
  obtain ⟨m, hm⟩ : ∃ m : ℤ, |x + m * (2 * Real.pi)| ≤ Real.pi := by
    refine ⟨-round (x / (2 * Real.pi)), ?_⟩
    have h := abs_sub_round (x / (2 * Real.pi))
    have e : x + ((-round (x / (2 * Real.pi)) : ℤ) : ℝ) * (2 * Real.pi) =
        (x / (2 * Real.pi) - round (x / (2 * Real.pi))) * (2 * Real.pi) := by
      push_cast; field_simp; ring
    rw [e, abs_mul, abs_of_pos (by positivity : 0 < 2 * Real.pi)]
    nlinarith
  have hk := key (j + m * n)
  have e : 2 * ((j + m * n : ℤ) : ℝ) * al + s * a - t * b = x + m * (2 * Real.pi) := by
    rw [hx, ← hal]; push_cast; ring
  rw [e] at hk
  rw [← Real.cos_add_int_mul_two_pi x m, ← Real.cos_abs (x + _), ← Real.cos_abs (a - b)]
  exact Real.cos_le_cos_of_nonneg_of_le_pi (abs_nonneg _) hm hk

/-- Distance of two points given by angles. -/
theorem eDist_polar (r q a b : ℝ) : eDist (polar r a) (polar q b) ^ 2 = r ^ 2 + q ^ 2 - 2 * (r * q) * Real.cos (a - b) := by
  rw [eDist_two, Real.sq_sqrt (by positivity), Real.cos_sub]
  simp only [polar, Matrix.cons_val_zero, Matrix.cons_val_one, Matrix.cons_val_fin_one]
  have h1 := Real.sin_sq_add_cos_sq a
  have h2 := Real.sin_sq_add_cos_sq b
  linear_combination r ^ 2 * h1 + q ^ 2 * h2

/-- Turn by `φ`, after reflecting the first coordinate if `s = -1`. -/
noncomputable def starMove (φ s : ℝ) (q : Fin 2 → ℝ) : Fin 2 → ℝ :=
  ![s * q 0 * Real.cos φ + q 1 * Real.sin φ, -(s * q 0) * Real.sin φ + q 1 * Real.cos φ]

theorem starMove_polar {s : ℝ} (hs : s = 1 ∨ s = -1) (φ r a : ℝ) : starMove φ s (polar r a) = polar r (φ + s * a) := by
  have h : s * Real.sin a = Real.sin (s * a) ∧ Real.cos a = Real.cos (s * a) := by
    rcases hs with rfl | rfl
    · simp
    · simp
  funext i
  fin_cases i
  · simp only [starMove, polar, Fin.zero_eta, Matrix.cons_val_zero, Matrix.cons_val_one, Matrix.cons_val_fin_one, Real.sin_add]
    rw [h.2, ← h.1]
    ring
  · simp only [starMove, polar, Fin.mk_one, Matrix.cons_val_zero, Matrix.cons_val_one, Matrix.cons_val_fin_one, Real.cos_add]
    rw [h.2, ← h.1]
    ring

theorem starMove_linear (φ s c d : ℝ) (p q : Fin 2 → ℝ) :
    starMove φ s (fun a => c * p a + d * q a) = fun a => c * starMove φ s p a + d * starMove φ s q a := by
  funext i
  fin_cases i <;> simp [starMove] <;> ring

theorem starMove_isometry {s : ℝ} (hs : s = 1 ∨ s = -1) (φ : ℝ) (p q : Fin 2 → ℝ) :
    eDist (starMove φ s p) (starMove φ s q) = eDist p q := by
  rw [eDist_two, eDist_two]
  congr 1
  simp only [starMove, Matrix.cons_val_zero, Matrix.cons_val_one, Matrix.cons_val_fin_one]
  have h1 := Real.sin_sq_add_cos_sq φ
  have h2 : s ^ 2 = 1 := by rcases hs with rfl | rfl <;> norm_num
  linear_combination (s ^ 2 * (p 0 - q 0) ^ 2 + (p 1 - q 1) ^ 2) * h1 + (p 0 - q 0) ^ 2 * h2

/-- The sector of half an arm. -/
def sector (al : ℝ) : Set (Fin 2 → ℝ) := {p | ∃ r a, 0 ≤ r ∧ 0 ≤ a ∧ a ≤ al ∧ p = polar r a}

theorem sector_closest {n : ℕ} (hn : 0 < n) {al : ℝ} (hal : n * al = Real.pi) {p q : Fin 2 → ℝ} (hp : p ∈ sector al)
    (hq : q ∈ sector al) {s t : ℝ} (hs : s = 1 ∨ s = -1) (ht : t = 1 ∨ t = -1) (k l : ℤ) :
    eDist p q ≤ eDist (starMove (2 * k * al) s p) (starMove (2 * l * al) t q) := by
  obtain ⟨r, a, hr, ha0, ha, rfl⟩ := hp
  obtain ⟨r', b, hr', hb0, hb, rfl⟩ := hq
  rw [starMove_polar hs, starMove_polar ht]
  refine (sq_le_sq₀ (eDist_nonneg _ _) (eDist_nonneg _ _)).mp ?_
  rw [eDist_polar, eDist_polar]
  have h := cos_sector hn hal ha0 ha hb0 hb hs ht (k - l)
  have e : 2 * k * al + s * a - (2 * l * al + t * b) = 2 * ((k - l : ℤ) : ℝ) * al + s * a - t * b := by push_cast; ring
  rw [e]
  have := mul_le_mul_of_nonneg_left h (mul_nonneg hr hr')
  linarith

theorem eDist_eq_zero {n : ℕ} {p q : Fin n → ℝ} (h : eDist p q = 0) : p = q := by
  funext a
  have := eDist_coord p q a
  rw [h] at this
  exact sub_eq_zero.mp (abs_nonpos_iff.mp this)

/-- Folding undoes a turn by some number of arms and possibly a reflection. -/
theorem starFold_spec {pf : PolarFns ℝ} (hpf : IsPolar pf) {n : ℕ} (hn : 0 < n) (x : Fin 2 → ℝ) :
    starFold realFns pf n x ∈ sector (Real.pi / n) ∧
    ∃ (k : ℤ) (s : ℝ), (s = 1 ∨ s = -1) ∧ x = starMove (2 * k * (Real.pi / n)) s (starFold realFns pf n x) := by
  obtain ⟨h1, h2, h3⟩ := hpf
  have hn' : (0 : ℝ) < n := by exact_mod_cast hn
  set al := Real.pi / n with hal
  have hal0 : 0 < al := div_pos Real.pi_pos hn'
  set z : ℂ := ⟨x 1, x 0⟩ with hz
  set θ := z.arg with hθ
  obtain ⟨k, hk, hk2⟩ := h3 (θ / (2 * al))
  have hx0 : x 0 = ‖z‖ * Real.sin θ := by rw [hθ, Complex.norm_mul_sin_arg]
  have hx1 : x 1 = ‖z‖ * Real.cos θ := by rw [hθ, Complex.norm_mul_cos_arg]
  set φ := 2 * (k : ℝ) * al with hφ
  have hδ : |θ - φ| ≤ al := by
    have e : θ - φ = (θ / (2 * al) - k) * (2 * al) := by rw [hφ]; field_simp
    rw [e, abs_mul, abs_of_pos (by positivity : 0 < 2 * al)]
    nlinarith
  have hF : starFold realFns pf n x = ![|x 0 * Real.cos φ - x 1 * Real.sin φ|, x 0 * Real.sin φ + x 1 * Real.cos φ] := by
    have e : pf.rint (pf.atan2 (x 0) (x 1) / (2 * starAngle pf n)) * (2 * starAngle pf n) = φ := by
      rw [starAngle, h1, h2, ← hz, ← hθ, ← hal, hk, hφ]; ring
    simp only [starFold, realFns_cos, realFns_sin, e]
  have w0 : x 0 * Real.cos φ - x 1 * Real.sin φ = ‖z‖ * Real.sin (θ - φ) := by
    rw [Real.sin_sub, hx0, hx1]; ring
  have w1 : x 0 * Real.sin φ + x 1 * Real.cos φ = ‖z‖ * Real.cos (θ - φ) := by
    rw [Real.cos_sub, hx0, hx1]; ring
  have hpi : al ≤ Real.pi := div_le_self Real.pi_pos.le (by exact_mod_cast hn)
  constructor
  · refine ⟨‖z‖, |θ - φ|, norm_nonneg _, abs_nonneg _, hδ, ?_⟩
    have hs : |Real.sin (θ - φ)| = Real.sin |θ - φ| := by
      rcases abs_cases (θ - φ) with ⟨h, h'⟩ | ⟨h, h'⟩
      · rw [h, abs_of_nonneg (Real.sin_nonneg_of_nonneg_of_le_pi h' (by linarith [le_abs_self (θ - φ)]))]
      · rw [h, Real.sin_neg, abs_of_nonpos (Real.sin_nonpos_of_nonpos_of_neg_pi_le h'.le
          (by linarith [neg_abs_le (θ - φ)]))]
    rw [hF, w0, w1, polar, abs_mul, abs_of_nonneg (norm_nonneg z), hs, Real.cos_abs]
  · have hsq := Real.sin_sq_add_cos_sq φ
    rcases le_or_gt 0 (x 0 * Real.cos φ - x 1 * Real.sin φ) with h | h
    · refine ⟨k, 1, Or.inl rfl, ?_⟩
      rw [hF, abs_of_nonneg h]
      funext i
      fin_cases i
      · simp only [starMove, Fin.zero_eta, Matrix.cons_val_zero, Matrix.cons_val_one, Matrix.cons_val_fin_one]
        rw [← hφ]
        linear_combination (-x 0) * hsq
      · simp only [starMove, Fin.mk_one, Matrix.cons_val_zero, Matrix.cons_val_one, Matrix.cons_val_fin_one]
        rw [← hφ]
        linear_combination (-x 1) * hsq
    · refine ⟨k, -1, Or.inr rfl, ?_⟩
      rw [hF, abs_of_neg h]
      funext i
      fin_cases i
      · simp only [starMove, Fin.zero_eta, Matrix.cons_val_zero, Matrix.cons_val_one, Matrix.cons_val_fin_one]
        rw [← hφ]
        linear_combination (-x 0) * hsq
      · simp only [starMove, Fin.mk_one, Matrix.cons_val_zero, Matrix.cons_val_one, Matrix.cons_val_fin_one]
        rw [← hφ]
        linear_combination (-x 1) * hsq

/-- Folding a moved point of the sector gives the point back. -/
theorem starFold_move {pf : PolarFns ℝ} (hpf : IsPolar pf) {n : ℕ} (hn : 0 < n) {q : Fin 2 → ℝ}
    (hq : q ∈ sector (Real.pi / n)) {s : ℝ} (hs : s = 1 ∨ s = -1) (k : ℤ) :
    starFold realFns pf n (starMove (2 * k * (Real.pi / n)) s q) = q := by
  have hal : (n : ℝ) * (Real.pi / n) = Real.pi := by
    have : (n : ℝ) ≠ 0 := by exact_mod_cast hn.ne'
    field_simp
  obtain ⟨h1, l, t, ht, h2⟩ := starFold_spec hpf hn (starMove (2 * k * (Real.pi / n)) s q)
  set f := starFold realFns pf n (starMove (2 * k * (Real.pi / n)) s q) with hf
  have h := sector_closest hn hal h1 hq ht hs l k
  rw [← h2, eDist_self] at h
  exact eDist_eq_zero (le_antisymm h (eDist_nonneg _ _))

/-- Coordinates of the sector with respect to tip and valley. -/
theorem sector_coords {al rOut rIn : ℝ} (h0 : 0 < al) (h1 : al < Real.pi) (hO : 0 < rOut) (hI : 0 < rIn) (p : Fin 2 → ℝ) :
    p ∈ sector al ↔ ∃ s t, 0 ≤ s ∧ 0 ≤ t ∧ p = fun a => s * polar rOut 0 a + t * polar rIn al a := by
  have hsin : 0 < Real.sin al := Real.sin_pos_of_pos_of_lt_pi h0 h1
  constructor
  · rintro ⟨r, a, hr, ha0, ha, rfl⟩
    have ha1 : 0 ≤ Real.sin a := Real.sin_nonneg_of_nonneg_of_le_pi ha0 (by linarith)
    have ha2 : 0 ≤ Real.sin (al - a) := Real.sin_nonneg_of_nonneg_of_le_pi (by linarith) (by linarith)
    refine ⟨r * Real.sin (al - a) / (rOut * Real.sin al), r * Real.sin a / (rIn * Real.sin al), by positivity, by positivity, ?_⟩
    funext i
    fin_cases i
    · simp only [polar, Fin.zero_eta, Matrix.cons_val_zero, Real.sin_zero, mul_zero, zero_add]
      field_simp
    · simp only [polar, Fin.mk_one, Matrix.cons_val_one, Matrix.cons_val_fin_one, Real.cos_zero, mul_one, Real.sin_sub]
      field_simp
      ring
  · rintro ⟨s, t, hs, ht, rfl⟩
    set p : Fin 2 → ℝ := fun a => s * polar rOut 0 a + t * polar rIn al a with hp
    have p0 : p 0 = t * rIn * Real.sin al := by simp [hp, polar]; ring
    have p1 : p 1 = s * rOut + t * rIn * Real.cos al := by simp [hp, polar]; ring
    set z : ℂ := ⟨p 1, p 0⟩ with hz
    have e0 : p 0 = ‖z‖ * Real.sin z.arg := by rw [Complex.norm_mul_sin_arg]
    have e1 : p 1 = ‖z‖ * Real.cos z.arg := by rw [Complex.norm_mul_cos_arg]
    have hp0 : 0 ≤ p 0 := by rw [p0]; positivity
    have harg : 0 ≤ z.arg := Complex.arg_nonneg_iff.mpr hp0
    by_cases hz0 : ‖z‖ = 0
    · refine ⟨0, 0, le_rfl, le_rfl, h0.le, ?_⟩
      funext i
      fin_cases i
      · change p 0 = _; rw [e0, hz0]; simp [polar]
      · change p 1 = _; rw [e1, hz0]; simp [polar]
    · refine ⟨‖z‖, z.arg, norm_nonneg _, harg, ?_, ?_⟩
      · by_contra hlt
        have hlt := not_le.mp hlt
        have hneg : Real.sin (al - z.arg) < 0 :=
          Real.sin_neg_of_neg_of_neg_pi_lt (by linarith) (by linarith [Complex.arg_le_pi z])
        have hpos : 0 ≤ ‖z‖ * Real.sin (al - z.arg) := by
          have : ‖z‖ * Real.sin (al - z.arg) = s * rOut * Real.sin al := by
            rw [Real.sin_sub]
            linear_combination (Real.sin al) * (p1 - e1) - Real.cos al * (p0 - e0)
          rw [this]; positivity
        have : 0 < ‖z‖ := lt_of_le_of_ne (norm_nonneg _) (Ne.symm hz0)
        nlinarith
      · funext i
        fin_cases i
        · exact e0
        · exact e1

/-- The star consists of the points whose folded image lies in the triangle. -/
theorem mem_star {pf : PolarFns ℝ} (hpf : IsPolar pf) {n : ℕ} (hn : 2 ≤ n) {rOut rIn : ℝ} (hO : 0 < rOut) (hI : 0 < rIn)
    (y : Fin 2 → ℝ) : y ∈ star n rOut rIn ↔ ∃ s t, 0 ≤ s ∧ 0 ≤ t ∧ s + t ≤ 1 ∧
      starFold realFns pf n y = fun a => s * polar rOut 0 a + t * polar rIn (Real.pi / n) a := by
  have hn0 : 0 < n := by omega
  have hn' : (2 : ℝ) ≤ n := by exact_mod_cast hn
  set al := Real.pi / n with hal
  have h0 : 0 < al := div_pos Real.pi_pos (by linarith)
  have h1 : al < Real.pi := div_lt_self Real.pi_pos (by linarith)
  constructor
  · rintro ⟨k, l, s, t, hl, hs, ht, hst, rfl⟩
    refine ⟨s, t, hs, ht, hst, ?_⟩
    obtain ⟨σ, hσ, hlσ⟩ : ∃ σ : ℝ, (σ = 1 ∨ σ = -1) ∧ (l : ℝ) = 2 * k + σ := by
      rcases hl with rfl | rfl
      · exact ⟨1, Or.inl rfl, by push_cast; ring⟩
      · exact ⟨-1, Or.inr rfl, by push_cast; ring⟩
    have e : (fun a => s * polar rOut (2 * k * al) a + t * polar rIn (l * al) a) =
        starMove (2 * k * al) σ fun a => s * polar rOut 0 a + t * polar rIn al a := by
      rw [starMove_linear, starMove_polar hσ, starMove_polar hσ, mul_zero, add_zero, hlσ]
      ring_nf
    rw [e]
    exact starFold_move hpf hn0 ((sector_coords h0 h1 hO hI _).mpr ⟨s, t, hs, ht, rfl⟩) hσ k
  · rintro ⟨s, t, hs, ht, hst, h⟩
    obtain ⟨-, k, σ, hσ, hy⟩ := starFold_spec hpf hn0 y
    rw [h, starMove_linear, starMove_polar hσ, starMove_polar hσ, mul_zero, add_zero] at hy
    rcases hσ with rfl | rfl
    · refine ⟨k, 2 * k + 1, s, t, Or.inl rfl, hs, ht, hst, ?_⟩
      rw [hy, hal]; push_cast; ring_nf
    · refine ⟨k, 2 * k - 1, s, t, Or.inr rfl, hs, ht, hst, ?_⟩
      rw [hy, hal]; push_cast; ring_nf

/-! ### Distance to one edge -/

/-- The cone spanned by two vectors. -/
def cone (v w : Fin 2 → ℝ) : Set (Fin 2 → ℝ) := {p | ∃ s t, 0 ≤ s ∧ 0 ≤ t ∧ p = fun a => s * v a + t * w a}

/-- The triangle spanned by two vectors and the origin. -/
def triangle (v w : Fin 2 → ℝ) : Set (Fin 2 → ℝ) :=
  {p | ∃ s t, 0 ≤ s ∧ 0 ≤ t ∧ s + t ≤ 1 ∧ p = fun a => s * v a + t * w a}

theorem segment_closest {n : ℕ} (p v e : Fin n → ℝ) (he : 0 < dotv e e) {t : ℝ} (h0 : 0 ≤ t) (h1 : t ≤ 1) :
    eDist p (fun a => v a + clipK 0 1 (dotv (fun a => p a - v a) e / dotv e e) * e a) ≤ eDist p fun a => v a + t * e a := by
  set c := dotv (fun a => p a - v a) e / dotv e e with hc
  have key : ∀ t : ℝ, ∑ a, (p a - (v a + t * e a)) ^ 2 =
      dotv e e * (c - t) ^ 2 + (∑ a, (p a - v a) ^ 2 - dotv e e * c ^ 2) := by
    intro t
    have h : dotv e e * c = dotv (fun a => p a - v a) e := by rw [hc]; field_simp
    have e1 : ∑ a, (p a - (v a + t * e a)) ^ 2 = ∑ a, (p a - v a) ^ 2 - 2 * t * dotv (fun a => p a - v a) e +
        t ^ 2 * dotv e e := by
      simp only [dotv, Finset.mul_sum, ← Finset.sum_sub_distrib, ← Finset.sum_add_distrib]
      exact Finset.sum_congr rfl fun a _ => by ring
    rw [e1, ← h]; ring
  unfold eDist
  rw [key, key]
  refine Real.sqrt_le_sqrt (add_le_add (mul_le_mul_of_nonneg_left ?_ he.le) le_rfl)
  exact clipK_closest h0 h1 c

theorem edgeDist_triangle {v w : Fin 2 → ℝ} (hk : 0 < w 0 * v 1 - w 1 * v 0) {p : Fin 2 → ℝ} (hp : p ∈ cone v w) :
    edgeDist realFns v w p = distTo (triangle v w ∩ cone v w) p - distTo ((triangle v w)ᶜ ∩ cone v w) p := by
  have he : 0 < dotv (fun a => w a - v a) fun a => w a - v a := by
    rcases eq_or_lt_of_le (show 0 ≤ dotv (fun a => w a - v a) fun a => w a - v a from
      Finset.sum_nonneg fun a _ => mul_self_nonneg _) with h | h
    · exfalso
      simp only [dotv, Fin.sum_univ_two] at h
      have h0 : w 0 - v 0 = 0 := by nlinarith [mul_self_nonneg (w 0 - v 0), mul_self_nonneg (w 1 - v 1)]
      have h1 : w 1 - v 1 = 0 := by nlinarith [mul_self_nonneg (w 0 - v 0), mul_self_nonneg (w 1 - v 1)]
      have h0 : w 0 = v 0 := by linarith
      have h1 : w 1 = v 1 := by linarith
      rw [h0, h1] at hk
      linarith
    · exact h
  set κ := w 0 * v 1 - w 1 * v 0 with hκ
  set e : Fin 2 → ℝ := fun a => w a - v a with hedef
  set h := clipK 0 1 (dotv (fun a => p a - v a) e / dotv e e) with hh
  set c : Fin 2 → ℝ := fun a => v a + h * e a with hc
  have hh01 := clipK_mem (zero_le_one (α := ℝ)) (dotv (fun a => p a - v a) e / dotv e e)
  rw [← hh] at hh01
  have hclose : ∀ t, 0 ≤ t → t ≤ 1 → eDist p c ≤ eDist p fun a => v a + t * e a := fun t t0 t1 =>
    segment_closest p v e he t0 t1
  have hcT : c = fun a => (1 - h) * v a + h * w a := by funext a; simp only [hc, hedef]; ring
  have hcone : c ∈ cone v w := ⟨1 - h, h, by linarith [hh01.2], hh01.1, hcT⟩
  have htri : c ∈ triangle v w := ⟨1 - h, h, by linarith [hh01.2], hh01.1, by linarith, hcT⟩
  have hD : norm2 realFns (fun a => p a - (v a + h * e a)) = eDist p c := by simp [norm2, eDist, hc]
  -- between a point of the triangle and one beyond the edge there is a point of the edge
  have hbetween : ∀ q, ∀ s t s' t' : ℝ, 0 ≤ s → 0 ≤ t → 0 ≤ s' → 0 ≤ t' → (p = fun a => s * v a + t * w a) →
      (q = fun a => s' * v a + t' * w a) → (s + t - 1) * (s' + t' - 1) ≤ 0 → s + t ≠ s' + t' →
      eDist p c ≤ eDist p q := by
    intro q s t s' t' hs ht hs' ht' hps hqs hprod hne
    set μ := (1 - (s + t)) / (s' + t' - (s + t)) with hμ
    have hd : s' + t' - (s + t) ≠ 0 := fun h => hne (by linarith)
    have hμe : μ * (s' + t' - (s + t)) = 1 - (s + t) := by rw [hμ]; field_simp
    have hμ0 : 0 ≤ μ := by
      rw [hμ]
      rcases lt_or_gt_of_ne hd with hlt | hgt
      · exact div_nonneg_of_nonpos (by nlinarith) hlt.le
      · exact div_nonneg (by nlinarith) hgt.le
    have hμ1 : μ ≤ 1 := by
      rw [hμ]
      rcases lt_or_gt_of_ne hd with hlt | hgt
      · rw [div_le_one_of_neg hlt]; nlinarith
      · rw [div_le_one hgt]; nlinarith
    set τ := t + μ * (t' - t) with hτ
    have hτ0 : 0 ≤ τ := by
      have : τ = (1 - μ) * t + μ * t' := by rw [hτ]; ring
      rw [this]
      exact add_nonneg (mul_nonneg (by linarith) ht) (mul_nonneg hμ0 ht')
    have hτ1 : τ ≤ 1 := by
      have : 1 - τ = (1 - μ) * s + μ * s' := by rw [hτ]; linear_combination -hμe
      have : 0 ≤ 1 - τ := by
        rw [this]; exact add_nonneg (mul_nonneg (by linarith) hs) (mul_nonneg hμ0 hs')
      linarith
    have hm : (fun a => v a + τ * e a) = fun a => p a + μ * (q a - p a) := by
      funext a
      simp only [hps, hqs, hτ, hedef]
      linear_combination -(v a) * hμe
    have h1 := hclose τ hτ0 hτ1
    rw [hm, eDist_along p (fun a => q a - p a) μ, abs_of_nonneg hμ0] at h1
    have h2 : eDist (fun a => q a - p a) (fun _ => 0) = eDist p q := by
      have := eDist_shift q p p
      simp only [sub_self] at this
      rw [this, eDist_comm]
    rw [h2] at h1
    have := eDist_nonneg p q
    nlinarith
  obtain ⟨s, t, hs, ht, hpst⟩ := hp
  have hcross : e 0 * (p 1 - v 1) - e 1 * (p 0 - v 0) = (s + t - 1) * κ := by
    simp only [hpst, hedef, hκ]; ring
  have hcode : edgeDist realFns v w p = eDist p c * sgn ((s + t - 1) * κ) := by
    rw [← hcross, ← hD]; rfl
  rcases lt_trichotomy (s + t) 1 with hlt | heq | hgt
  · have hsg : sgn ((s + t - 1) * κ) = -1 := by
      rw [sgn, if_pos (mul_neg_of_neg_of_pos (by linarith) hk)]
    have hin : p ∈ triangle v w ∩ cone v w := ⟨⟨s, t, hs, ht, hlt.le, hpst⟩, ⟨s, t, hs, ht, hpst⟩⟩
    have hout : distTo ((triangle v w)ᶜ ∩ cone v w) p = eDist p c := by
      refine distTo_eq ?_ ?_
      · rintro q ⟨hq1, s', t', hs', ht', hq⟩
        have : 1 < s' + t' := not_le.mp fun hle => hq1 ⟨s', t', hs', ht', hle, hq⟩
        exact hbetween q s t s' t' hs ht hs' ht' hpst hq (by nlinarith) (by linarith)
      · intro ε hε
        -- step a little beyond the closest point of the edge
        set L := eDist c (fun _ => 0) with hL
        have hL0 : 0 ≤ L := eDist_nonneg _ _
        set η := ε / (L + 1) with hη
        have hη0 : 0 < η := by positivity
        have hηL : η * L ≤ ε := by
          rw [hη, div_mul_eq_mul_div, div_le_iff₀ (by linarith)]; nlinarith
        refine ⟨fun a => c a + η * c a, ⟨?_, (1 + η) * (1 - h), (1 + η) * h, ?_, ?_, ?_⟩, ?_⟩
        · rintro ⟨s', t', hs', ht', hle, hq⟩
          have q0 := congrFun hq 0
          have q1 := congrFun hq 1
          simp only [hcT] at q0 q1
          have : (1 + η - (s' + t')) * κ = 0 := by
            rw [hκ]
            linear_combination (v 1 - w 1) * q0 - (v 0 - w 0) * q1
          have := (mul_eq_zero.mp this).resolve_right hk.ne'
          linarith
        · exact mul_nonneg (by linarith) (by linarith [hh01.2])
        · exact mul_nonneg (by linarith) hh01.1
        · funext a; simp only [hcT]; ring
        · have h1 := eDist_triangle p c fun a => c a + η * c a
          rw [eDist_along, abs_of_pos hη0] at h1
          linarith
    rw [hcode, hsg, distTo_self hin, hout]; ring
  · have hsg : sgn ((s + t - 1) * κ) = 0 := by rw [heq]; simp [sgn]
    have hin : p ∈ triangle v w ∩ cone v w := ⟨⟨s, t, hs, ht, heq.le, hpst⟩, ⟨s, t, hs, ht, hpst⟩⟩
    have hout : distTo ((triangle v w)ᶜ ∩ cone v w) p = 0 := by
      refine distTo_eq (fun _ _ => eDist_nonneg _ _) fun ε hε => ?_
      set L := eDist p (fun _ => 0) with hL
      have hL0 : 0 ≤ L := eDist_nonneg _ _
      set η := ε / (L + 1) with hη
      have hη0 : 0 < η := by positivity
      have hηL : η * L ≤ ε := by
        rw [hη, div_mul_eq_mul_div, div_le_iff₀ (by linarith)]; nlinarith
      refine ⟨fun a => p a + η * p a, ⟨?_, (1 + η) * s, (1 + η) * t, ?_, ?_, ?_⟩, ?_⟩
      · rintro ⟨s', t', hs', ht', hle, hq⟩
        have q0 := congrFun hq 0
        have q1 := congrFun hq 1
        simp only [hpst] at q0 q1
        have : ((1 + η) * (s + t) - (s' + t')) * κ = 0 := by
          rw [hκ]
          linear_combination (v 1 - w 1) * q0 - (v 0 - w 0) * q1
        have := (mul_eq_zero.mp this).resolve_right hk.ne'
        rw [heq] at this
        linarith
      · exact mul_nonneg (by linarith) hs
      · exact mul_nonneg (by linarith) ht
      · funext a; simp only [hpst]; ring
      · rw [eDist_along, abs_of_pos hη0]
        linarith
    rw [hcode, hsg, distTo_self hin, hout]; ring
  · have hsg : sgn ((s + t - 1) * κ) = 1 := by
      have : 0 < (s + t - 1) * κ := mul_pos (by linarith) hk
      rw [sgn, if_neg (not_lt.mpr this.le), if_neg this.ne']
    have hnot : p ∈ (triangle v w)ᶜ ∩ cone v w := by
      refine ⟨?_, ⟨s, t, hs, ht, hpst⟩⟩
      rintro ⟨s', t', hs', ht', hle, hq⟩
      have q0 := congrFun hq 0
      have q1 := congrFun hq 1
      simp only [hpst] at q0 q1
      have : ((s + t) - (s' + t')) * κ = 0 := by
        rw [hκ]
        linear_combination (v 1 - w 1) * q0 - (v 0 - w 0) * q1
      have := (mul_eq_zero.mp this).resolve_right hk.ne'
      linarith
    have hin : distTo (triangle v w ∩ cone v w) p = eDist p c := by
      refine distTo_eq ?_ fun ε hε => ⟨c, ⟨htri, hcone⟩, by linarith⟩
      rintro q ⟨⟨s', t', hs', ht', hle, hq⟩, -⟩
      exact hbetween q s t s' t' hs ht hs' ht' hpst hq (by nlinarith) (by linarith)
    rw [hcode, hsg, hin, distTo_self hnot]; ring

/-- Local distance of the star. -/
theorem starDist_eq {pf : PolarFns ℝ} (hpf : IsPolar pf) {n : ℕ} (hn : 2 ≤ n) {rOut rIn : ℝ} (hO : 0 < rOut)
    (hI : 0 < rIn) (x : Fin 2 → ℝ) : starDist realFns pf n rOut rIn x = signedDist (star n rOut rIn) x := by
  have hn0 : 0 < n := by omega
  have hn' : (2 : ℝ) ≤ n := by exact_mod_cast hn
  set al := Real.pi / n with hal
  have h0 : 0 < al := div_pos Real.pi_pos (by linarith)
  have h1 : al < Real.pi := div_lt_self Real.pi_pos (by linarith)
  have hnal : (n : ℝ) * al = Real.pi := by rw [hal]; field_simp
  set v := polar rOut 0 with hv
  set w := polar rIn al with hw
  have hsec : ∀ p, p ∈ sector al ↔ p ∈ cone v w := fun p => sector_coords h0 h1 hO hI p
  have hstar : star n rOut rIn = {y | starFold realFns pf n y ∈ triangle v w} := by
    ext y
    exact mem_star hpf hn hO hI y
  have hstar' : (star n rOut rIn)ᶜ = {y | starFold realFns pf n y ∈ (triangle v w)ᶜ} := by
    rw [hstar]; rfl
  have f1 : ∀ x, starFold realFns pf n x ∈ cone v w := fun x => (hsec _).mp (starFold_spec hpf hn0 x).1
  have f2 : ∀ x y, eDist (starFold realFns pf n x) (starFold realFns pf n y) ≤ eDist x y := by
    intro x y
    obtain ⟨hx, k, s, hs, ex⟩ := starFold_spec hpf hn0 x
    obtain ⟨hy, l, t, ht, ey⟩ := starFold_spec hpf hn0 y
    have := sector_closest hn0 hnal hx hy hs ht k l
    rwa [← ex, ← ey] at this
  have f3 : ∀ x, ∀ q ∈ cone v w, ∃ y, starFold realFns pf n y = q ∧ eDist x y = eDist (starFold realFns pf n x) q := by
    intro x q hq
    obtain ⟨hx, k, s, hs, ex⟩ := starFold_spec hpf hn0 x
    refine ⟨starMove (2 * k * al) s q, starFold_move hpf hn0 ((hsec q).mpr hq) hs k, ?_⟩
    conv_lhs => rw [ex]
    exact starMove_isometry hs _ _ _
  have hsin : 0 < Real.sin al := Real.sin_pos_of_pos_of_lt_pi h0 h1
  have hk : 0 < w 0 * v 1 - w 1 * v 0 := by
    simp only [hv, hw, polar, Matrix.cons_val_zero, Matrix.cons_val_one, Matrix.cons_val_fin_one, Real.sin_zero,
      Real.cos_zero, mul_zero, mul_one, sub_zero]
    positivity
  rw [signedDist, hstar', hstar, distTo_fold f1 f2 f3, distTo_fold f1 f2 f3, ← edgeDist_triangle hk (f1 x)]
  have ev : v = ![0, rOut] := by simp [hv, polar]
  have ew : w = ![rIn * Real.sin (starAngle pf n), rIn * Real.cos (starAngle pf n)] := by
    rw [starAngle, hpf.1]; rfl
  rw [ev, ew]
  rfl

/-- **C75**: `StarSDF` reports the exact signed distance of the star in every pose, for two or more arms and positive
radii. -/
theorem star_signed_distance (grad : ((Fin 2 → ℝ) → ℝ) → (Fin 2 → ℝ) → Fin 2 → ℝ) (friction : (Fin 2 → ℝ) → ℝ)
    {pf : PolarFns ℝ} (hpf : IsPolar pf) {n : ℕ} (hn : 2 ≤ n) {rOut rIn : ℝ} (hO : 0 < rOut) (hI : 0 < rIn)
    (s : SdfState ℝ 2) (x : Fin 2 → ℝ) :
    (baseSdf realFns grad (starDist realFns pf n rOut rIn) friction).dist s x =
      signedDist (posed s (star n rOut rIn)) x := by
  rw [signedDist_posed (n := 2) (s := s) trivial]
  exact starDist_eq hpf hn hO hI _

/-- The functions of the standard library are of this kind. -/
noncomputable def realPolar : PolarFns ℝ := { pi := Real.pi, atan2 := fun y x => Complex.arg ⟨x, y⟩, rint := fun t => round t }

theorem realPolar_isPolar : IsPolar realPolar := ⟨rfl, fun _ _ => rfl, fun t => ⟨round t, rfl, abs_sub_round t⟩⟩

/-- The tip of the first arm belongs to the five-armed star. -/
example : (fun a => (1 : ℝ) * polar 1 (2 * (0 : ℤ) * (Real.pi / (5 : ℕ))) a + 0 * polar (1 / 2) ((1 : ℤ) * (Real.pi / (5 : ℕ))) a) ∈
    star 5 1 (1 / 2) := ⟨0, 1, 1, 0, Or.inl rfl, by norm_num, le_rfl, by norm_num, rfl⟩

/-- Its centre is reported inside, at the distance of the edges. -/
example : starDist realFns realPolar 5 1 (1 / 2) (fun _ => 0) ≤ 0 := by
  have h : (fun _ => 0) ∈ Spec.star 5 1 (1 / 2) :=
    ⟨0, 1, 0, 0, Or.inl rfl, le_rfl, le_rfl, by norm_num, by funext a; simp⟩
  rw [starDist_eq realPolar_isPolar (by norm_num) one_pos (by norm_num), signedDist, distTo_self h, zero_sub, neg_nonpos]
  refine Real.sInf_nonneg ?_
  rintro _ ⟨y, -, rfl⟩
  exact eDist_nonneg _ _

end
end Hydrax
