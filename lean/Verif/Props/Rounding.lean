import Verif.Model.Rounding
import Verif.Props.FloatGrid
import Mathlib.Data.Rat.Cast.Order
import Mathlib.Algebra.Order.Archimedean.Basic

/-!
# Clock and positions in finite precision (C113, C114)
-/

namespace Hydrax

/-! ### Rounding to `p` bits -/

theorem rndBits_53 : rndBits 53 = rnd64 := by
  funext q
  unfold rndBits rnd64 ulpBits ulp
  norm_num

theorem nearestEven_mono {a b : ℚ} (h : a ≤ b) : nearestEven a ≤ nearestEven b := by
  by_contra hc
  push Not at hc
  have ha := abs_le.mp (nearestEven_err a)
  have hb := abs_le.mp (nearestEven_err b)
  have h1 : (nearestEven b : ℚ) + 1 ≤ nearestEven a := by exact_mod_cast hc
  have : a = b := by linarith [ha.2, hb.1]
  rw [this] at hc
  exact lt_irrefl _ hc

theorem ulpBits_pos (p : ℕ) (q : ℚ) : 0 < ulpBits p q := by unfold ulpBits; positivity

theorem log_neg (q : ℚ) : Int.log 2 |-q| = Int.log 2 |q| := by rw [abs_neg]

/-- Distance to the rounded number: half a unit in the last place. -/
theorem rndBits_ulp (p : ℕ) (q : ℚ) : |rndBits p q - q| ≤ ulpBits p q / 2 := by
  have hu := ulpBits_pos p q
  unfold rndBits
  split_ifs with hq
  · rw [hq] at hu ⊢; simp only [sub_zero, abs_zero]; linarith
  · have h1 := nearestEven_err (q / ulpBits p q)
    have h2 : (nearestEven (q / ulpBits p q) : ℚ) * ulpBits p q - q =
        ((nearestEven (q / ulpBits p q) : ℚ) - q / ulpBits p q) * ulpBits p q := by
      field_simp
    rw [h2, abs_mul, abs_of_pos hu]
    calc _ ≤ 1 / 2 * ulpBits p q := mul_le_mul_of_nonneg_right h1 hu.le
      _ = _ := by ring

/-- Relative error of one operation. -/
theorem rndBits_err (p : ℕ) (q : ℚ) : |rndBits p q - q| ≤ |q| / 2 ^ p := by
  by_cases hq : q = 0
  · simp [hq, rndBits]
  refine (rndBits_ulp p q).trans ?_
  have h := Int.zpow_log_le_self (b := 2) (r := |q|) (by norm_num) (abs_pos.mpr hq)
  push_cast at h
  have e : ulpBits p q / 2 = 2 ^ Int.log 2 |q| / 2 ^ p := by
    unfold ulpBits
    rw [zpow_sub₀ (by norm_num), zpow_sub₀ (by norm_num)]
    simp
    field_simp
  rw [e]
  exact div_le_div_of_nonneg_right h (by positivity)

/-- Representable with `p` bits. -/
def Spec.Representable (p : ℕ) (q : ℚ) : Prop := ∃ m k : ℤ, |m| ≤ 2 ^ p ∧ q = m * 2 ^ k

/-- On the grid of numbers a number of size at least `2^e` is a multiple of `2^(e-(p-1))`. -/
theorem representable_multiple {p : ℕ} (hp : 0 < p) {q : ℚ} (h : Spec.Representable p q) {e : ℤ} (he : (2 : ℚ) ^ e ≤ |q|) :
    ∃ z : ℤ, q = z * 2 ^ (e - (p - 1)) := by
  obtain ⟨m, k, hm, rfl⟩ := h
  have hmq : |(m : ℚ)| ≤ 2 ^ p := by rw [← Int.cast_abs]; exact_mod_cast hm
  have hk : (0 : ℚ) < 2 ^ k := by positivity
  have hqa : |(m : ℚ) * 2 ^ k| = |(m : ℚ)| * 2 ^ k := by rw [abs_mul, abs_of_pos hk]
  rw [hqa] at he
  by_cases h4 : e - (p - 1) ≤ k
  · refine ⟨m * 2 ^ (k - (e - (p - 1))).toNat, ?_⟩
    push_cast
    rw [← zpow_natCast, Int.toNat_of_nonneg (by omega), mul_assoc, ← zpow_add₀ (by norm_num)]
    congr 2; ring
  · have h2 : (2 : ℚ) ^ e ≤ 2 ^ ((p : ℤ) + k) := by
      rw [zpow_add₀ (by norm_num)]
      exact he.trans (mul_le_mul_of_nonneg_right (by exact_mod_cast hmq) hk.le)
    have h3 : e ≤ p + k := (zpow_le_zpow_iff_right₀ (by norm_num : (1 : ℚ) < 2)).mp h2
    have h5 : e = p + k := by omega
    rw [h5, zpow_add₀ (by norm_num)] at he
    have h6 : (2 : ℚ) ^ (p : ℤ) ≤ |(m : ℚ)| := le_of_mul_le_mul_right he hk
    rw [zpow_natCast] at h6
    have h7 : |(m : ℚ)| = 2 ^ p := le_antisymm hmq h6
    have h8 : |m| = 2 ^ p := by rw [← Int.cast_abs] at h7; exact_mod_cast h7
    have h9 : (2 : ℤ) ∣ m := by
      rw [← dvd_abs, h8]
      exact dvd_pow_self 2 hp.ne'
    obtain ⟨z, hz⟩ := h9
    refine ⟨z, ?_⟩
    rw [h5, hz, show ((p : ℤ) + k - (p - 1)) = k + 1 by ring, zpow_add₀ (by norm_num)]
    push_cast; ring

/-- Representable numbers are not changed. -/
theorem rndBits_exact {p : ℕ} (hp : 0 < p) {q : ℚ} (h : Spec.Representable p q) : rndBits p q = q := by
  by_cases hq : q = 0
  · simp [hq, rndBits]
  have hl := Int.zpow_log_le_self (b := 2) (r := |q|) (by norm_num) (abs_pos.mpr hq)
  push_cast at hl
  obtain ⟨z, hz⟩ := representable_multiple hp h hl
  have hu := ulpBits_pos p q
  have e : q / ulpBits p q = z := by
    rw [div_eq_iff hu.ne']
    exact hz
  unfold rndBits
  rw [if_neg hq, e, nearestEven_int, ← e]
  field_simp

theorem representable_pow (p : ℕ) (e : ℤ) : Spec.Representable p (2 ^ e) :=
  ⟨1, e, by simpa using one_le_pow₀ (by norm_num : (1 : ℤ) ≤ 2), by simp⟩

theorem rndLog_bounds {q : ℚ} (hq : 0 < q) : (2 : ℚ) ^ Int.log 2 |q| ≤ q ∧ q < 2 ^ (Int.log 2 |q| + 1) := by
  rw [abs_of_pos hq]
  have h1 := Int.zpow_log_le_self (b := 2) (r := q) (by norm_num) hq
  have h2 := Int.lt_zpow_succ_log_self (b := 2) (by norm_num) q
  push_cast at h1 h2
  exact ⟨h1, h2⟩

theorem ulpBits_mul (p : ℕ) (hp : 0 < p) (q : ℚ) : ulpBits p q * 2 ^ (p - 1) = 2 ^ Int.log 2 |q| := by
  unfold ulpBits
  rw [← zpow_natCast, ← zpow_add₀ (by norm_num)]
  congr 1
  have : ((p - 1 : ℕ) : ℤ) = p - 1 := by omega
  rw [this]; ring

/-- A positive number stays between the same powers of two. -/
theorem rndBits_between {p : ℕ} (hp : 0 < p) {q : ℚ} (hq : 0 < q) :
    (2 : ℚ) ^ Int.log 2 |q| ≤ rndBits p q ∧ rndBits p q ≤ 2 ^ (Int.log 2 |q| + 1) := by
  obtain ⟨h1, h2⟩ := rndLog_bounds hq
  have hu := ulpBits_pos p q
  have hm := ulpBits_mul p hp q
  unfold rndBits
  rw [if_neg hq.ne']
  constructor
  · have : (((2 ^ (p - 1) : ℤ)) : ℚ) ≤ q / ulpBits p q := by
      rw [le_div_iff₀ hu]; push_cast; rw [mul_comm, hm]; exact h1
    have h3 := nearestEven_mono this
    rw [nearestEven_int] at h3
    have h4 : ((2 : ℚ) ^ (p - 1)) ≤ nearestEven (q / ulpBits p q) := by exact_mod_cast h3
    calc (2 : ℚ) ^ Int.log 2 |q| = 2 ^ (p - 1) * ulpBits p q := by rw [← hm]; ring
      _ ≤ _ := mul_le_mul_of_nonneg_right h4 hu.le
  · have h5 : (2 : ℚ) ^ (Int.log 2 |q| + 1) = (2 * 2 ^ (p - 1)) * ulpBits p q := by
      rw [zpow_add₀ (by norm_num), ← hm]; ring
    have : q / ulpBits p q ≤ (((2 * 2 ^ (p - 1) : ℤ)) : ℚ) := by
      rw [div_le_iff₀ hu]; push_cast; rw [← h5]; exact h2.le
    have h3 := nearestEven_mono this
    rw [nearestEven_int] at h3
    have h4 : (nearestEven (q / ulpBits p q) : ℚ) ≤ 2 * 2 ^ (p - 1) := by exact_mod_cast h3
    rw [h5]
    exact mul_le_mul_of_nonneg_right h4 hu.le

/-- Rounded numbers are representable. -/
theorem rndBits_representable {p : ℕ} (hp : 0 < p) (q : ℚ) : Spec.Representable p (rndBits p q) := by
  by_cases hq : q = 0
  · exact ⟨0, 0, by simp, by simp [hq, rndBits]⟩
  refine ⟨nearestEven (q / ulpBits p q), Int.log 2 |q| - (p - 1), ?_, by unfold rndBits; rw [if_neg hq]; rfl⟩
  have hu := ulpBits_pos p q
  have h2 := Int.lt_zpow_succ_log_self (b := 2) (by norm_num) |q|
  push_cast at h2
  have hm := ulpBits_mul p hp q
  have h3 : |q / ulpBits p q| ≤ ((2 ^ p : ℤ) : ℚ) := by
    rw [abs_div, abs_of_pos hu, div_le_iff₀ hu]
    refine h2.le.trans_eq ?_
    rw [zpow_add₀ (by norm_num), ← hm]
    push_cast
    obtain ⟨k, rfl⟩ : ∃ k, p = k + 1 := ⟨p - 1, by omega⟩
    rw [Nat.add_sub_cancel, pow_succ]; ring
  obtain ⟨h4, h5⟩ := abs_le.mp h3
  have a := nearestEven_mono h5
  have h4' : ((-(2 ^ p) : ℤ) : ℚ) ≤ q / ulpBits p q := by push_cast at h4 ⊢; exact h4
  have b := nearestEven_mono h4'
  rw [nearestEven_int] at a b
  exact abs_le.mpr ⟨b, a⟩

theorem rndBits_nonneg (p : ℕ) {q : ℚ} (hq : 0 ≤ q) : 0 ≤ rndBits p q := by
  unfold rndBits
  split_ifs
  · exact le_rfl
  · have hu := ulpBits_pos p q
    have h : ((0 : ℤ) : ℚ) ≤ q / ulpBits p q := by push_cast; positivity
    have h3 := nearestEven_mono h
    rw [nearestEven_int] at h3
    have : (0 : ℚ) ≤ nearestEven (q / ulpBits p q) := by exact_mod_cast h3
    positivity

/-- Rounding keeps the order of non-negative numbers. -/
theorem rndBits_mono {p : ℕ} (hp : 0 < p) {a b : ℚ} (ha : 0 ≤ a) (h : a ≤ b) : rndBits p a ≤ rndBits p b := by
  rcases ha.eq_or_lt with h0 | h0
  · rw [← h0]
    have e : rndBits p 0 = 0 := by simp [rndBits]
    rw [e]
    exact rndBits_nonneg p (h0 ▸ h)
  have hb := lt_of_lt_of_le h0 h
  have hl : Int.log 2 |a| ≤ Int.log 2 |b| := by
    rw [abs_of_pos h0, abs_of_pos hb]; exact Int.log_mono_right h0 h
  rcases hl.eq_or_lt with h1 | h1
  · have hu : ulpBits p a = ulpBits p b := by unfold ulpBits; rw [h1]
    unfold rndBits
    rw [if_neg h0.ne', if_neg hb.ne', hu]
    have hp := ulpBits_pos p b
    refine mul_le_mul_of_nonneg_right ?_ hp.le
    exact_mod_cast nearestEven_mono (div_le_div_of_nonneg_right h hp.le)
  · calc rndBits p a ≤ 2 ^ (Int.log 2 |a| + 1) := (rndBits_between hp h0).2
      _ ≤ 2 ^ Int.log 2 |b| := zpow_le_zpow_right₀ (by norm_num) (by omega)
      _ ≤ _ := (rndBits_between hp hb).1

/-- A number closer than half a unit to a point of the grid is rounded to it. -/
theorem rndBits_near {p : ℕ} {q : ℚ} (hq : q ≠ 0) (z : ℤ) (h : |q - z * ulpBits p q| < ulpBits p q / 2) :
    rndBits p q = z * ulpBits p q := by
  have hu := ulpBits_pos p q
  unfold rndBits
  rw [if_neg hq, nearestEven_unique _ z]
  have e : q / ulpBits p q - z = (q - z * ulpBits p q) / ulpBits p q := by field_simp
  rw [e, abs_div, abs_of_pos hu, div_lt_iff₀ hu]
  linarith

/-- A small increment is lost. -/
theorem rndBits_absorb {p : ℕ} (hp : 0 < p) {x d : ℚ} (hx : Spec.Representable p x) (hx0 : x ≠ 0)
    (hd : |d| < ulpBits p x / 4) : rndBits p (x + d) = x := by
  set e := Int.log 2 |x| with he
  have hax := abs_pos.mpr hx0
  obtain ⟨h1, h2⟩ := rndLog_bounds hax
  rw [abs_abs, ← he] at h1 h2
  have hu := ulpBits_pos p x
  have hm := ulpBits_mul p hp x
  rw [← he] at hm
  have hU : ulpBits p x = 2 ^ (e - (p - 1)) := rfl
  obtain ⟨z, hz⟩ := representable_multiple hp hx h1
  rw [← hU] at hz
  have hpow : (1 : ℚ) ≤ 2 ^ (p - 1) := one_le_pow₀ (by norm_num)
  have hU1 : ulpBits p x ≤ 2 ^ e := by rw [← hm]; exact le_mul_of_one_le_right hu.le hpow
  have hlo : (2 : ℚ) ^ (e - 1) ≤ |x + d| := by
    have a : |x| - |d| ≤ |x + d| := by
      have := abs_sub_abs_le_abs_sub x (-d)
      rwa [abs_neg, sub_neg_eq_add] at this
    have b : (2 : ℚ) ^ (e - 1) = 2 ^ e / 2 := by rw [zpow_sub₀ (by norm_num)]; simp
    rw [b]
    linarith
  have hq0 : 0 < |x + d| := lt_of_lt_of_le (by positivity) hlo
  have hq : x + d ≠ 0 := abs_pos.mp hq0
  have hhi : |x + d| < 2 ^ (e + 1) := by
    have hxz : |x| = |z| * ulpBits p x := by
      conv_lhs => rw [hz, abs_mul, abs_of_pos hu]
      push_cast; rfl
    have hee : (2 : ℚ) ^ (e + 1) = ((2 * 2 ^ (p - 1) : ℤ) : ℚ) * ulpBits p x := by
      rw [zpow_add₀ (by norm_num), ← hm]; push_cast; ring
    rw [hee, hxz] at h2
    have h3 : ((|z| : ℤ) : ℚ) < ((2 * 2 ^ (p - 1) : ℤ) : ℚ) := by
      push_cast at h2 ⊢
      exact lt_of_mul_lt_mul_right h2 hu.le
    have h4 : |z| + 1 ≤ 2 * 2 ^ (p - 1) := by
      have : |z| < 2 * 2 ^ (p - 1) := by exact_mod_cast h3
      omega
    have h5 : ((|z| : ℤ) : ℚ) + 1 ≤ ((2 * 2 ^ (p - 1) : ℤ) : ℚ) := by exact_mod_cast h4
    have h6 := abs_add_le x d
    rw [hee]
    have h7 := mul_le_mul_of_nonneg_right h5 hu.le
    push_cast at h7 hxz ⊢
    rw [hxz] at h6
    linarith
  have l1 : e - 1 ≤ Int.log 2 |x + d| := by
    rw [← Int.zpow_le_iff_le_log (by norm_num) hq0]; exact_mod_cast hlo
  have l2 : Int.log 2 |x + d| < e + 1 := by
    rw [← Int.lt_zpow_iff_log_lt (by norm_num) hq0]; exact_mod_cast hhi
  rcases (by omega : Int.log 2 |x + d| = e ∨ Int.log 2 |x + d| = e - 1) with l | l
  · have hu' : ulpBits p (x + d) = ulpBits p x := by unfold ulpBits; rw [l]
    have := rndBits_near (p := p) hq z (by
      rw [hu', ← hz, add_sub_cancel_left]; linarith)
    rw [this, hu', ← hz]
  · have hu' : ulpBits p (x + d) = ulpBits p x / 2 := by
      rw [hU]; unfold ulpBits; rw [l, show e - 1 - ((p : ℤ) - 1) = e - (p - 1) - 1 by ring, zpow_sub₀ (by norm_num) _ 1]
      simp
    have hz' : x = ((2 * z : ℤ) : ℚ) * (ulpBits p x / 2) := by
      conv_lhs => rw [hz]
      push_cast; ring
    have := rndBits_near (p := p) hq (2 * z) (by
      rw [hu', ← hz', add_sub_cancel_left]; linarith)
    rw [this, hu', ← hz']

/-! ### C113 -/

/-- Without rounding this is the clock of the model of the solver (`clock_exact`). -/
theorem clockRounded_id (t0 dt : ℚ) (n : ℕ) : clockRounded id t0 dt n = t0 + n * dt := by
  induction n with
  | zero => simp [clockRounded]
  | succ n ih => simp only [clockRounded, ih, id]; push_cast; ring

theorem clock_step (rnd : ℚ → ℚ) (t0 dt : ℚ) (n : ℕ) :
    clockRounded rnd t0 dt (n + 1) = rnd (clockRounded rnd t0 dt n + dt) := rfl

/-- **C113** (partial): the clock deviates from `t0 + n dt` by a relative error of at most `(1 + 2^-p)^n - 1`. -/
theorem clock_error_partial (p : ℕ) {t0 dt : ℚ} (h0 : 0 ≤ t0) (hd : 0 ≤ dt) (n : ℕ) :
    |clockRounded (rndBits p) t0 dt n - (t0 + n * dt)| ≤ (t0 + n * dt) * ((1 + 1 / 2 ^ p) ^ n - 1) := by
  set u : ℚ := 1 / 2 ^ p with hu
  have hu0 : 0 ≤ u := by positivity
  induction n with
  | zero => simp [clockRounded]
  | succ n ih =>
    set t := clockRounded (rndBits p) t0 dt n with ht
    rw [clock_step, ← ht]
    have hr := rndBits_err p (t + dt)
    have e1 : |t + dt| / 2 ^ p = u * |t + dt| := by rw [hu]; ring
    rw [e1] at hr
    have hS : 0 ≤ t0 + n * dt := by positivity
    have hS' : 0 ≤ t0 + (n + 1 : ℕ) * dt := by positivity
    have hSS : t0 + n * dt ≤ t0 + (n + 1 : ℕ) * dt := by push_cast; linarith
    have hg : 0 ≤ (1 + u) ^ n - 1 := by linarith [one_le_pow₀ (n := n) (by linarith : 1 ≤ 1 + u)]
    have h2 : |t + dt - (t0 + (n + 1 : ℕ) * dt)| ≤ (t0 + (n + 1 : ℕ) * dt) * ((1 + u) ^ n - 1) := by
      have e2 : t + dt - (t0 + (n + 1 : ℕ) * dt) = t - (t0 + n * dt) := by push_cast; ring
      rw [e2]
      exact ih.trans (mul_le_mul_of_nonneg_right hSS hg)
    set S := t0 + (n + 1 : ℕ) * dt with hSdef
    have h3 : |t + dt| ≤ S + S * ((1 + u) ^ n - 1) := by
      have := abs_sub_abs_le_abs_sub (t + dt) S
      rw [abs_of_nonneg hS'] at this
      linarith
    have h4 : |rndBits p (t + dt) - S| ≤ |rndBits p (t + dt) - (t + dt)| + |t + dt - S| := by
      have := abs_add_le (rndBits p (t + dt) - (t + dt)) (t + dt - S)
      rwa [sub_add_sub_cancel] at this
    have h5 := mul_le_mul_of_nonneg_left h3 hu0
    calc _ ≤ u * (S + S * ((1 + u) ^ n - 1)) + S * ((1 + u) ^ n - 1) := by linarith
      _ = S * ((1 + u) ^ (n + 1) - 1) := by ring

example : |clockRounded (rndBits 24) 0 (1 / 10) 100 - (0 + (100 : ℕ) * (1 / 10))| ≤
    (0 + (100 : ℕ) * (1 / 10)) * ((1 + 1 / 2 ^ 24) ^ 100 - 1) := clock_error_partial 24 le_rfl (by norm_num) 100

/-- **C113** (partial): a binary time step is counted exactly, for up to `2^p` units. -/
theorem clock_exact_partial {p : ℕ} (hp : 0 < p) (a d : ℕ) (k : ℤ) (n : ℕ) (h : a + n * d ≤ 2 ^ p) :
    clockRounded (rndBits p) (a * 2 ^ k) (d * 2 ^ k) n = a * 2 ^ k + n * (d * 2 ^ k) := by
  induction n with
  | zero => simp [clockRounded]
  | succ n ih =>
    rw [clock_step, ih (by nlinarith), rndBits_exact hp]
    · push_cast; ring
    · refine ⟨a + (n + 1) * d, k, ?_, by push_cast; ring⟩
      rw [abs_of_nonneg (by positivity)]
      exact_mod_cast h

theorem clock_representable {p : ℕ} (hp : 0 < p) {t0 : ℚ} (hr : Spec.Representable p t0) (dt : ℚ) :
    ∀ n, Spec.Representable p (clockRounded (rndBits p) t0 dt n)
  | 0 => hr
  | _ + 1 => rndBits_representable hp _

theorem clock_nonneg (p : ℕ) {t0 dt : ℚ} (h0 : 0 ≤ t0) (hd : 0 ≤ dt) : ∀ n, 0 ≤ clockRounded (rndBits p) t0 dt n
  | 0 => h0
  | n + 1 => rndBits_nonneg p (add_nonneg (clock_nonneg p h0 hd n) hd)

/-- **C113** (partial): the clock never runs backwards. -/
theorem clock_monotone_partial {p : ℕ} (hp : 0 < p) {t0 dt : ℚ} (hr : Spec.Representable p t0) (h0 : 0 ≤ t0) (hd : 0 ≤ dt) :
    Monotone (clockRounded (rndBits p) t0 dt) := by
  refine monotone_nat_of_le_succ fun n => ?_
  have h := rndBits_mono hp (clock_nonneg p h0 hd n) (le_add_of_nonneg_right (a := clockRounded (rndBits p) t0 dt n) hd)
  rwa [rndBits_exact hp (clock_representable hp hr dt n)] at h

/-- Half a unit above a power of two is rounded down to it. -/
theorem rndBits_pow_add {p : ℕ} (hp : 1 < p) (k : ℤ) {d : ℚ} (hd : 0 ≤ d) (hd' : d ≤ 2 ^ (k - p)) :
    rndBits p (2 ^ k + d) = 2 ^ k := by
  have hk : (0 : ℚ) < 2 ^ k := by positivity
  have hq : 0 < (2 : ℚ) ^ k + d := by linarith
  have hlt : (2 : ℚ) ^ k + d < 2 ^ (k + 1) := by
    have : (2 : ℚ) ^ (k - p) < 2 ^ k := zpow_lt_zpow_right₀ (by norm_num) (by omega)
    rw [zpow_add₀ (by norm_num), zpow_one]; linarith
  have l : Int.log 2 |(2 : ℚ) ^ k + d| = k := by
    rw [abs_of_pos hq]
    have a : k ≤ Int.log 2 ((2 : ℚ) ^ k + d) := by
      rw [← Int.zpow_le_iff_le_log (by norm_num) hq]; push_cast; linarith
    have b : Int.log 2 ((2 : ℚ) ^ k + d) < k + 1 := by
      rw [← Int.lt_zpow_iff_log_lt (by norm_num) hq]; exact_mod_cast hlt
    omega
  have hu : ulpBits p ((2 : ℚ) ^ k + d) = 2 ^ (k - (p - 1)) := by unfold ulpBits; rw [l]
  have hU : (0 : ℚ) < 2 ^ (k - ((p : ℤ) - 1)) := by positivity
  have hkU : (2 : ℚ) ^ k = 2 ^ (p - 1) * 2 ^ (k - ((p : ℤ) - 1)) := by
    rw [← zpow_natCast, ← zpow_add₀ (by norm_num)]; congr 1; omega
  have hdU : (2 : ℚ) ^ (k - (p : ℤ)) = 2 ^ (k - ((p : ℤ) - 1)) / 2 := by
    rw [show k - (p : ℤ) = k - (p - 1) - 1 by ring, zpow_sub₀ (by norm_num) _ 1, zpow_one]
  unfold rndBits
  rw [if_neg hq.ne', hu]
  set U : ℚ := 2 ^ (k - ((p : ℤ) - 1)) with hUd
  have e : ((2 : ℚ) ^ k + d) / U = ((2 ^ (p - 1) : ℤ) : ℚ) + d / U := by
    rw [hkU]; push_cast; field_simp
  have hdd : d / U ≤ 1 / 2 := by rw [div_le_iff₀ hU]; linarith
  have hd0 : 0 ≤ d / U := by positivity
  have hf : ⌊((2 ^ (p - 1) : ℤ) : ℚ) + d / U⌋ = 2 ^ (p - 1) := by
    rw [Int.floor_eq_iff]; constructor <;> push_cast <;> linarith
  have hev : Even ((2 : ℤ) ^ (p - 1)) := (even_two).pow_of_ne_zero (by omega)
  have hn : nearestEven (((2 ^ (p - 1) : ℤ) : ℚ) + d / U) = 2 ^ (p - 1) := by
    unfold nearestEven
    rw [hf, if_pos hev]
    split_ifs with h1 h2
    · rfl
    · push_cast at h2; linarith
    · rfl
  rw [e, hn, hkU]; push_cast; rfl

/-- **C113** (negative): a clock with time step at most `2^(k-p)` never passes `2^k`, however many steps are taken. -/
theorem clock_bounded {p : ℕ} (hp : 1 < p) {t0 dt : ℚ} (k : ℤ) (h0 : 0 ≤ t0) (hk : t0 ≤ 2 ^ k) (hd : 0 ≤ dt)
    (hdk : dt ≤ 2 ^ (k - p)) (n : ℕ) : clockRounded (rndBits p) t0 dt n ≤ 2 ^ k := by
  induction n with
  | zero => exact hk
  | succ n ih =>
    rw [clock_step, ← rndBits_pow_add hp k hd hdk]
    exact rndBits_mono (by omega) (add_nonneg (clock_nonneg p h0 hd n) hd) (by linarith)

/-- In single precision a clock started at zero with steps of a microsecond never passes 16 seconds. -/
example (n : ℕ) : clockRounded (rndBits 24) 0 (1 / 2 ^ 20) n ≤ 2 ^ (4 : ℤ) :=
  clock_bounded (by norm_num) 4 le_rfl (by norm_num) (by norm_num) (by norm_num) n

/-- **C113** (negative): for every precision and every time step the clock falls behind the simulated time by any amount. -/
theorem clock_not_faithful {p : ℕ} (hp : 1 < p) {t0 dt : ℚ} (h0 : 0 ≤ t0) (hd : 0 < dt) (D : ℚ) :
    ∃ N, ∀ n, N ≤ n → clockRounded (rndBits p) t0 dt n + D < t0 + n * dt := by
  obtain ⟨k, hk⟩ : ∃ k : ℕ, t0 + dt * 2 ^ p ≤ 2 ^ k := by
    obtain ⟨k, hk⟩ := pow_unbounded_of_one_lt (t0 + dt * 2 ^ p) (by norm_num : (1 : ℚ) < 2)
    exact ⟨k, hk.le⟩
  have hP : (0 : ℚ) < 2 ^ p := by positivity
  have b := clock_bounded hp (t0 := t0) (dt := dt) (k : ℤ) h0
    (by rw [zpow_natCast]; nlinarith) hd.le (by
      rw [zpow_sub₀ (by norm_num), zpow_natCast, zpow_natCast, le_div_iff₀ hP]; linarith)
  obtain ⟨N, hN⟩ := exists_nat_gt (((2 : ℚ) ^ k + D) / dt)
  refine ⟨N, fun n hn => ?_⟩
  rw [div_lt_iff₀ hd] at hN
  have h1 : (N : ℚ) * dt ≤ n * dt := mul_le_mul_of_nonneg_right (by exact_mod_cast hn) hd.le
  have h2 := b n
  rw [zpow_natCast] at h2
  linarith

example : ∃ N, ∀ n, N ≤ n → clockRounded (rndBits 24) 0 (1 / 1000000) n + 3600 < 0 + n * (1 / 1000000) :=
  clock_not_faithful (by norm_num) le_rfl (by norm_num) 3600

/-- The default time step of `build` (builder.py:365) in single precision. -/
theorem default_dt : rndBits 24 (1 / 1000) = 8589935 * 2 ^ (-33 : ℤ) := by
  have hl : Int.log 2 |(1 / 1000 : ℚ)| = -10 := by
    rw [abs_of_pos (by norm_num)]
    have a : (-10 : ℤ) ≤ Int.log 2 (1 / 1000 : ℚ) := by
      rw [← Int.zpow_le_iff_le_log (by norm_num) (by norm_num)]; norm_num
    have b : Int.log 2 (1 / 1000 : ℚ) < -9 := by
      rw [← Int.lt_zpow_iff_log_lt (by norm_num) (by norm_num)]; norm_num
    omega
  have hu : ulpBits 24 (1 / 1000) = 2 ^ (-33 : ℤ) := by unfold ulpBits; rw [hl]; norm_num
  unfold rndBits
  rw [if_neg (by norm_num), hu, nearestEven_unique _ 8589935 (by rw [abs_lt]; norm_num)]
  norm_num

/-- **C113** (negative): with the default time step and the default precision the clock never passes 32768 seconds. -/
theorem default_clock_stops (n : ℕ) : clockRounded (rndBits 24) 0 (rndBits 24 (1 / 1000)) n ≤ 32768 := by
  have := clock_bounded (p := 24) (by norm_num) (t0 := 0) (dt := rndBits 24 (1 / 1000)) 15 le_rfl (by norm_num)
    (by rw [default_dt]; norm_num) (by rw [default_dt]; norm_num) n
  norm_num at this
  exact this

/-- Non-vacuous: a clock of binary steps, exact for its first 16 million steps. -/
example : clockRounded (rndBits 24) 0 (1 / 1024) 5000000 = 5000000 / 1024 := by
  have := clock_exact_partial (p := 24) (by norm_num) 0 1 (-10) 5000000 (by norm_num)
  norm_num at this ⊢
  exact this

/-! ### C114 -/

theorem drift_step (rnd : ℚ → ℚ) (x v dt : ℚ) (n : ℕ) :
    driftRounded rnd x v dt (n + 1) = rnd (driftRounded rnd x v dt n + rnd (v * dt)) := rfl

/-- **C114** (partial): deviation of a coordinate from uniform motion. -/
theorem drift_error_partial (p : ℕ) (x v dt : ℚ) (n : ℕ) :
    |driftRounded (rndBits p) x v dt n - (x + n * (v * dt))| ≤ (|x| + n * |v * dt|) * ((1 + 1 / 2 ^ p) ^ (n + 1) - 1) := by
  set u : ℚ := 1 / 2 ^ p with hu
  have hu0 : 0 ≤ u := by positivity
  set w := v * dt with hw
  set d := rndBits p w with hd
  have hdw : |d - w| ≤ u * |w| := by
    have := rndBits_err p w
    rw [← hd] at this
    refine this.trans_eq ?_
    rw [hu]; ring
  induction n with
  | zero => simp [driftRounded]; positivity
  | succ n ih =>
    set y := driftRounded (rndBits p) x v dt n with hy
    rw [drift_step, ← hy, ← hw, ← hd]
    have hr := rndBits_err p (y + d)
    have e1 : |y + d| / 2 ^ p = u * |y + d| := by rw [hu]; ring
    rw [e1] at hr
    set A := x + (n + 1 : ℕ) * w with hA
    set S := |x| + (n + 1 : ℕ) * |w| with hS
    set g := (1 + u) ^ (n + 1) - 1 with hg
    have hug : u ≤ g := by
      have := one_add_mul_le_pow (by linarith : (-2 : ℚ) ≤ u) (n + 1)
      push_cast at this
      have hn : (0 : ℚ) ≤ n * u := by positivity
      rw [hg]; nlinarith
    have hAS : |A| ≤ S := by
      refine (abs_add_le _ _).trans_eq ?_
      rw [abs_mul, Nat.abs_cast]
    have h2 : |y + d - A| ≤ S * g := by
      have e2 : y + d - A = (y - (x + n * w)) + (d - w) := by rw [hA]; push_cast; ring
      have hSn : S = (|x| + n * |w|) + |w| := by rw [hS]; push_cast; ring
      rw [e2]
      refine (abs_add_le _ _).trans ?_
      have := mul_le_mul_of_nonneg_right hug (abs_nonneg w)
      rw [hSn, add_mul]
      linarith
    have h3 : |y + d| ≤ S + S * g := by
      have := abs_sub_abs_le_abs_sub (y + d) A
      linarith
    have h4 : |rndBits p (y + d) - A| ≤ |rndBits p (y + d) - (y + d)| + |y + d - A| := by
      have := abs_add_le (rndBits p (y + d) - (y + d)) (y + d - A)
      rwa [sub_add_sub_cancel] at this
    have h5 := mul_le_mul_of_nonneg_left h3 hu0
    calc _ ≤ u * (S + S * g) + S * g := by linarith
      _ = S * ((1 + u) ^ (n + 1 + 1) - 1) := by rw [hg]; ring

/-- **C114** (negative): a point that would move by less than `2^-(p+2)` of its coordinate per step never moves. -/
theorem slow_point_stuck {p : ℕ} (hp : 0 < p) {x v dt : ℚ} (hx : Spec.Representable p x) (hx0 : x ≠ 0)
    (hv : |rndBits p (v * dt)| ≤ |x| / 2 ^ (p + 2)) (n : ℕ) : driftRounded (rndBits p) x v dt n = x := by
  induction n with
  | zero => rfl
  | succ n ih =>
    rw [drift_step, ih]
    refine rndBits_absorb hp hx hx0 (lt_of_le_of_lt hv ?_)
    obtain ⟨-, h2⟩ := rndLog_bounds (abs_pos.mpr hx0)
    rw [abs_abs, zpow_add₀ (by norm_num), ← ulpBits_mul p hp x] at h2
    obtain ⟨k, rfl⟩ : ∃ k, p = k + 1 := ⟨p - 1, by omega⟩
    rw [div_lt_iff₀ (by positivity)]
    refine h2.trans_eq ?_
    rw [Nat.add_sub_cancel, pow_add, pow_succ, zpow_one]; ring

/-- **C114** (negative): in single precision a point one metre from the origin with 1.5e-5 m/s and a time step of about one
millisecond (`2^-10` s) stays where it is, however many steps are taken, although it should get arbitrarily far. -/
theorem drift_not_faithful (n : ℕ) : driftRounded (rndBits 24) 1 (2 ^ (-16 : ℤ)) (2 ^ (-10 : ℤ)) n = 1 := by
  refine slow_point_stuck (by norm_num) ⟨1, 0, by norm_num, by norm_num⟩ one_ne_zero ?_ n
  rw [← zpow_add₀ (by norm_num), rndBits_exact (by norm_num) (representable_pow 24 _)]
  norm_num

/-! ### C115 -/

theorem stretch_step (rnd : ℚ → ℚ) (l dt : ℚ) (n : ℕ) :
    stretchRounded rnd l dt (n + 1) = rnd (rnd (1 - rnd (l * dt)) * stretchRounded rnd l dt n) := rfl

/-- Without rounding the stretch is a power of the increment. -/
theorem stretchRounded_id (l dt : ℚ) (n : ℕ) : stretchRounded id l dt n = (1 - l * dt) ^ n := by
  induction n with
  | zero => simp [stretchRounded]
  | succ n ih => rw [stretch_step, ih]; simp only [id]; ring

/-- **C115** (partial): deviation of the stretch from the exact one. -/
theorem stretch_error_partial (p : ℕ) (l dt : ℚ) (n : ℕ) :
    |stretchRounded (rndBits p) l dt n - (1 - l * dt) ^ n| ≤ (1 + |l * dt|) ^ n * ((1 + 1 / 2 ^ p) ^ (3 * n) - 1) := by
  have hrel : ∀ q, |rndBits p q - q| ≤ (1 / 2 ^ p) * |q| := fun q => (rndBits_err p q).trans_eq (by ring)
  set u : ℚ := 1 / 2 ^ p with hu
  have hu0 : 0 ≤ u := by positivity
  set w := l * dt with hw
  set B := 1 + |w| with hB
  have hB0 : 0 ≤ B := by positivity
  have tri : ∀ a b c : ℚ, |a - c| ≤ |a - b| + |b - c| := fun a b c => by
    have := abs_add_le (a - b) (b - c); rwa [sub_add_sub_cancel] at this
  have h1 : |rndBits p (1 - rndBits p w) - (1 - w)| ≤ B * ((1 + u) ^ 2 - 1) := by
    have a := hrel w
    have b := hrel (1 - rndBits p w)
    have c : |1 - rndBits p w - (1 - w)| = |rndBits p w - w| := by
      rw [← abs_neg]; congr 1; ring
    have d : |1 - rndBits p w| ≤ B + u * |w| := by
      have e1 := tri (1 - rndBits p w) (1 - w) 0
      rw [sub_zero, sub_zero, c] at e1
      have e2 : |1 - w| ≤ 1 + |w| := (abs_sub _ _).trans (by simp)
      linarith
    have e := tri (rndBits p (1 - rndBits p w)) (1 - rndBits p w) (1 - w)
    have f := mul_le_mul_of_nonneg_left d hu0
    have g : |w| ≤ B := by rw [hB]; linarith
    nlinarith [mul_le_mul_of_nonneg_left g hu0, mul_le_mul_of_nonneg_left g (mul_nonneg hu0 hu0)]
  have hw1 : |1 - w| ≤ B := (abs_sub _ _).trans (by simp [hB])
  set a := rndBits p (1 - rndBits p w) with ha
  have h2 : |a| ≤ B * (1 + u) ^ 2 := by
    have := tri a (1 - w) 0
    rw [sub_zero, sub_zero] at this
    linarith
  induction n with
  | zero => simp [stretchRounded]
  | succ n ih =>
    rw [stretch_step, ← hw, ← ha]
    set y := stretchRounded (rndBits p) l dt n with hy
    set g := (1 + u) ^ (3 * n) with hg
    have hg0 : 0 ≤ g := by positivity
    have hA : |(1 - w) ^ n| ≤ B ^ n := by rw [abs_pow]; exact pow_le_pow_left₀ (abs_nonneg _) hw1 n
    have hBn : 0 ≤ B ^ n := by positivity
    have hy' : |y| ≤ B ^ n * g := by
      have := tri y ((1 - w) ^ n) 0
      rw [sub_zero, sub_zero] at this
      linarith
    have r := hrel (a * y)
    have hay : |a * y| ≤ B * (1 + u) ^ 2 * (B ^ n * g) := by
      rw [abs_mul]; exact mul_le_mul h2 hy' (abs_nonneg _) (by positivity)
    have s1 : |a * y - (1 - w) ^ (n + 1)| ≤ B * (1 + u) ^ 2 * (B ^ n * (g - 1)) + B * ((1 + u) ^ 2 - 1) * B ^ n := by
      have e : a * y - (1 - w) ^ (n + 1) = a * (y - (1 - w) ^ n) + (a - (1 - w)) * (1 - w) ^ n := by ring
      rw [e]
      refine (abs_add_le _ _).trans (add_le_add ?_ ?_)
      · rw [abs_mul]; exact mul_le_mul h2 ih (abs_nonneg _) (by positivity)
      · rw [abs_mul]
        refine mul_le_mul h1 hA (abs_nonneg _) ((abs_nonneg _).trans h1)
    have t := tri (rndBits p (a * y)) (a * y) ((1 - w) ^ (n + 1))
    have v := mul_le_mul_of_nonneg_left hay hu0
    calc _ ≤ u * (B * (1 + u) ^ 2 * (B ^ n * g)) + (B * (1 + u) ^ 2 * (B ^ n * (g - 1)) + B * ((1 + u) ^ 2 - 1) * B ^ n) := by
          linarith
      _ = B ^ (n + 1) * ((1 + u) ^ (3 * (n + 1)) - 1) := by
          rw [show 3 * (n + 1) = 3 * n + 3 by ring, pow_add (1 + u), ← hg]; ring

/-- **C115** (negative): compression or extension by less than `2^-(p+2)` per step is never felt: the deformation gradient
stays the identity, and with it volume, density and pressure. -/
theorem slow_strain_lost {p : ℕ} (hp : 0 < p) {l dt : ℚ} (h : |rndBits p (l * dt)| ≤ 1 / 2 ^ (p + 2)) (n : ℕ) :
    stretchRounded (rndBits p) l dt n = 1 := by
  have h1 : Spec.Representable p 1 := by simpa using representable_pow p 0
  induction n with
  | zero => rfl
  | succ n ih =>
    have := slow_point_stuck hp h1 one_ne_zero (v := -rndBits p (l * dt)) (dt := 1) ?_ 1
    · rw [drift_step] at this
      simp only [driftRounded, mul_one] at this
      have e : rndBits p (-rndBits p (l * dt)) = -rndBits p (l * dt) := by
        refine rndBits_exact hp ?_
        obtain ⟨m, k, hm, e⟩ := rndBits_representable hp (l * dt)
        exact ⟨-m, k, by rwa [abs_neg], by rw [e]; push_cast; ring⟩
      rw [e, ← sub_eq_add_neg] at this
      rw [stretch_step, ih, this, mul_one, rndBits_exact hp h1]
    · have e : rndBits p (-rndBits p (l * dt)) = -rndBits p (l * dt) := by
        refine rndBits_exact hp ?_
        obtain ⟨m, k, hm, e⟩ := rndBits_representable hp (l * dt)
        exact ⟨-m, k, by rwa [abs_neg], by rw [e]; push_cast; ring⟩
      rw [mul_one, e, abs_neg, abs_one]; exact h

/-- **C115** (negative): in single precision a compression of 1e-5 per second with steps of `2^-10` s leaves the stretch at one for
ever, while the exact stretch is halved in time. -/
theorem strain_not_faithful : (∀ n, stretchRounded (rndBits 24) (2 ^ (-17 : ℤ)) (2 ^ (-10 : ℤ)) n = 1) ∧
    ∃ n, stretchRounded id (2 ^ (-17 : ℤ)) (2 ^ (-10 : ℤ)) n < 1 / 2 := by
  constructor
  · intro n
    refine slow_strain_lost (by norm_num) ?_ n
    rw [← zpow_add₀ (by norm_num), rndBits_exact (by norm_num) (representable_pow 24 _)]
    norm_num
  · simp only [stretchRounded_id]
    exact exists_pow_lt_of_lt_one (by norm_num) (by norm_num)

end Hydrax
