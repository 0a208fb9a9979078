import Verif.Model.Float
import Mathlib.Tactic.Linarith
import Mathlib.Tactic.NormNum
import Mathlib.Tactic.Positivity
import Mathlib.Tactic.FieldSimp
import Mathlib.Tactic.Ring
import Mathlib.Algebra.Order.Field.Power

/-!
# Grid sizing in double precision (C61)
-/

namespace Hydrax

/-! ### Rounding -/

theorem nearestEven_ge_floor (q : ℚ) : ⌊q⌋ ≤ nearestEven q := by
  unfold nearestEven; split_ifs <;> omega

theorem nearestEven_le_floor (q : ℚ) : nearestEven q ≤ ⌊q⌋ + 1 := by
  unfold nearestEven; split_ifs <;> omega

theorem nearestEven_err (q : ℚ) : |(nearestEven q : ℚ) - q| ≤ 1 / 2 := by
  have h0 := Int.floor_le q
  have h1 := Int.lt_floor_add_one q
  unfold nearestEven
  split_ifs <;> rw [abs_le] <;> constructor <;> push_cast <;> linarith

theorem nearestEven_int (z : ℤ) : nearestEven z = z := by
  unfold nearestEven; simp

/-- The nearest integer is determined by being closer than one half. -/
theorem nearestEven_unique (q : ℚ) (m : ℤ) (h : |q - m| < 1 / 2) : nearestEven q = m := by
  have h1 := nearestEven_err q
  have h2 : |((nearestEven q - m : ℤ) : ℚ)| < 1 := by
    push_cast
    calc |(nearestEven q : ℚ) - m| = |((nearestEven q : ℚ) - q) + (q - m)| := by ring_nf
      _ ≤ |(nearestEven q : ℚ) - q| + |q - m| := abs_add_le _ _
      _ < 1 := by linarith
  rw [← Int.cast_abs] at h2
  have h3 : |nearestEven q - m| < 1 := by exact_mod_cast h2
  have := Int.abs_lt_one_iff.mp h3
  omega

theorem ulp_pos (q : ℚ) : 0 < ulp q := by unfold ulp; positivity

theorem ulp_le (q : ℚ) (hq : q ≠ 0) : ulp q ≤ |q| / 2 ^ 52 := by
  have h := Int.zpow_log_le_self (b := 2) (r := |q|) (by norm_num) (abs_pos.mpr hq)
  unfold ulp
  rw [zpow_sub₀ (by norm_num)]
  push_cast at h
  exact div_le_div_of_nonneg_right h (by positivity)

/-- Relative error of one operation. -/
theorem rnd64_err (q : ℚ) : |rnd64 q - q| ≤ |q| / 2 ^ 53 := by
  unfold rnd64
  split_ifs with hq
  · simp [hq]
  · have h1 := nearestEven_err (q / ulp q)
    have hu := ulp_pos q
    have h2 : (nearestEven (q / ulp q) : ℚ) * ulp q - q = ((nearestEven (q / ulp q) : ℚ) - q / ulp q) * ulp q := by
      field_simp
    rw [h2, abs_mul, abs_of_pos hu]
    have h3 := ulp_le q hq
    calc _ ≤ 1 / 2 * ulp q := mul_le_mul_of_nonneg_right h1 hu.le
      _ ≤ 1 / 2 * (|q| / 2 ^ 52) := by linarith
      _ = |q| / 2 ^ 53 := by ring

/-- Numbers with at most 53 significant bits are not changed. -/
theorem rnd64_exact (m k : ℤ) (hm : |m| ≤ 2 ^ 53) : rnd64 (m * 2 ^ k) = m * 2 ^ k := by
  by_cases h0 : m = 0
  · simp [h0, rnd64]
  have hq : (m : ℚ) * 2 ^ k ≠ 0 := by
    have : (m : ℚ) ≠ 0 := by exact_mod_cast h0
    positivity
  have hqa : |(m : ℚ) * 2 ^ k| = |(m : ℚ)| * 2 ^ k := by rw [abs_mul, abs_of_pos (by positivity : (0 : ℚ) < 2 ^ k)]
  have hmq : |(m : ℚ)| ≤ 2 ^ 53 := by rw [← Int.cast_abs]; exact_mod_cast hm
  set e := Int.log 2 |(m : ℚ) * 2 ^ k| with he
  have h1 : (2 : ℚ) ^ e ≤ |(m : ℚ)| * 2 ^ k := by
    have h := Int.zpow_log_le_self (b := 2) (r := |(m : ℚ) * 2 ^ k|) (by norm_num) (abs_pos.mpr hq)
    rw [← he] at h
    push_cast at h
    exact h.trans_eq hqa
  have h2 : (2 : ℚ) ^ e ≤ 2 ^ (53 + k) := by
    rw [zpow_add₀ (by norm_num)]
    exact h1.trans (mul_le_mul_of_nonneg_right (by exact_mod_cast hmq) (by positivity))
  have h3 : e ≤ 53 + k := (zpow_le_zpow_iff_right₀ (by norm_num : (1 : ℚ) < 2)).mp h2
  have key : ∃ z : ℤ, (m : ℚ) * 2 ^ k / ulp (m * 2 ^ k) = z := by
    unfold ulp
    rw [← he]
    by_cases h4 : e - 52 ≤ k
    · refine ⟨m * 2 ^ (k - (e - 52)).toNat, ?_⟩
      push_cast
      rw [mul_div_assoc, ← zpow_sub₀ (by norm_num), ← zpow_natCast, Int.toNat_of_nonneg (by omega)]
    · have h5 : e = 53 + k := by omega
      rw [h5, zpow_add₀ (by norm_num)] at h1
      have h6 : (2 : ℚ) ^ (53 : ℤ) ≤ |(m : ℚ)| := le_of_mul_le_mul_right h1 (by positivity)
      have h7 : |(m : ℚ)| = 2 ^ 53 := le_antisymm hmq (by exact_mod_cast h6)
      rw [h5, show (53 + k - 52 : ℤ) = k + 1 by ring, zpow_add₀ (by norm_num)]
      rcases abs_eq (by positivity : (0 : ℚ) ≤ 2 ^ 53) |>.mp h7 with h8 | h8
      · refine ⟨2 ^ 52, ?_⟩
        rw [h8]
        push_cast
        have : (2 : ℚ) ^ k ≠ 0 := by positivity
        field_simp
        norm_num
      · refine ⟨-2 ^ 52, ?_⟩
        rw [h8]
        push_cast
        have : (2 : ℚ) ^ k ≠ 0 := by positivity
        field_simp
        norm_num
  obtain ⟨z, hz⟩ := key
  unfold rnd64
  rw [if_neg hq, hz, nearestEven_int]
  have hu := ulp_pos ((m : ℚ) * 2 ^ k)
  rw [← hz]
  field_simp

/-- Computing a rounded value from its significand. -/
theorem rnd64_cert (q : ℚ) (m k : ℤ) (h1 : (2 : ℚ) ^ (k + 52) ≤ |q|) (h2 : |q| < 2 ^ (k + 53))
    (h3 : nearestEven (q / 2 ^ k) = m) : rnd64 q = m * 2 ^ k := by
  have hpos : 0 < |q| := lt_of_lt_of_le (by positivity) h1
  have hl : Int.log 2 |q| = k + 52 := by
    have a : k + 52 ≤ Int.log 2 |q| := by
      rw [← Int.zpow_le_iff_le_log (by norm_num) hpos]; exact_mod_cast h1
    have b : Int.log 2 |q| < k + 53 := by
      rw [← Int.lt_zpow_iff_log_lt (by norm_num) hpos]; exact_mod_cast h2
    omega
  have hu : ulp q = 2 ^ k := by unfold ulp; rw [hl]; congr 1; ring
  unfold rnd64
  rw [if_neg (abs_pos.mp hpos), hu, h3]

/-- Rounding does not pass an integer from below or above, below 2^53. -/
theorem rnd64_int_le (q : ℚ) (N : ℤ) (hq : |q| < 2 ^ 53) (h : (N : ℚ) ≤ q) : (N : ℚ) ≤ rnd64 q := by
  unfold rnd64
  split_ifs with h0
  · rw [h0] at h; exact h
  have hpos := abs_pos.mpr h0
  have hl : Int.log 2 |q| < 53 := by
    rw [← Int.lt_zpow_iff_log_lt (by norm_num) hpos]; exact_mod_cast hq
  have hu := ulp_pos q
  have hz : (N : ℚ) = ((N * 2 ^ (52 - Int.log 2 |q|).toNat : ℤ) : ℚ) * ulp q := by
    unfold ulp
    push_cast
    rw [mul_assoc, ← zpow_natCast, Int.toNat_of_nonneg (by omega), ← zpow_add₀ (by norm_num)]
    simp
  rw [hz] at h ⊢
  refine mul_le_mul_of_nonneg_right ?_ hu.le
  have h1 : ((N * 2 ^ (52 - Int.log 2 |q|).toNat : ℤ) : ℚ) ≤ q / ulp q := (le_div_iff₀ hu).mpr h
  have h2 := Int.le_floor.mpr h1
  exact_mod_cast h2.trans (nearestEven_ge_floor _)

/-! ### C61 -/

/-- Without rounding this is the exact model. -/
theorem createRounded_id {dim : ℕ} (o e : Fin dim → ℚ) (h : ℚ) (p : ℕ) :
    GridDomain.createRounded id o e h p = GridDomain.create o e h p := rfl

/-- Numbers on a common binary lattice: `a·2^k`. -/
def Spec.OnLattice (k : ℤ) (a : ℤ) (x : ℚ) : Prop := x = a * 2 ^ k

/-- **C61** (partial): if the box and the cell size are multiples of a common power of two, with numerators up to `2^50`
including the padding, the number of nodes computed in double precision is the exact one, and so are the bounds. -/
theorem float_size_exact_partial {dim : ℕ} (o e : Fin dim → ℚ) (h : ℚ) (p : ℕ) (d : Fin dim) (k a b : ℤ) (c : ℕ)
    (hc : 0 < c) (ho : Spec.OnLattice k a (o d)) (he : Spec.OnLattice k b (e d)) (hh : Spec.OnLattice k c h)
    (hab : o d ≤ e d) (hc' : c ≤ 2 ^ 50) (ha' : |a| + p * c ≤ 2 ^ 50) (hb' : |b| + p * c ≤ 2 ^ 50) :
    (GridDomain.createRounded rnd64 o e h p).gridSize d = (GridDomain.create o e h p).gridSize d ∧
    (GridDomain.createRounded rnd64 o e h p).origin d = (GridDomain.create o e h p).origin d ∧
    (GridDomain.createRounded rnd64 o e h p).stop d = (GridDomain.create o e h p).stop d := by
  unfold Spec.OnLattice at ho he hh
  have ht : (0 : ℚ) < 2 ^ k := by positivity
  have hpc : (0 : ℤ) ≤ p * c := by positivity
  have e1 : rnd64 (p * h) = p * h := by
    have := rnd64_exact (p * c) k (by rw [abs_of_nonneg hpc]; have := abs_nonneg a; omega)
    rw [hh]
    push_cast at this ⊢
    rw [← mul_assoc]
    exact this
  have e2 : rnd64 (o d - p * h) = o d - p * h := by
    have := rnd64_exact (a - p * c) k (by
      rw [abs_le]; have := le_abs_self a; have := neg_abs_le a; constructor <;> omega)
    rw [ho, hh]
    push_cast at this ⊢
    rw [show (a : ℚ) * 2 ^ k - p * (c * 2 ^ k) = (a - p * c) * 2 ^ k by ring]
    exact this
  have e3 : rnd64 (e d + p * h) = e d + p * h := by
    have := rnd64_exact (b + p * c) k (by
      rw [abs_le]; have := le_abs_self b; have := neg_abs_le b; constructor <;> omega)
    rw [he, hh]
    push_cast at this ⊢
    rw [show (b : ℚ) * 2 ^ k + p * (c * 2 ^ k) = (b + p * c) * 2 ^ k by ring]
    exact this
  set m : ℤ := b + p * c - (a - p * c) with hm
  have hba : a ≤ b := by
    rw [ho, he] at hab
    exact_mod_cast le_of_mul_le_mul_right hab ht
  have hm0 : 0 ≤ m := by omega
  have hm1 : m ≤ 2 ^ 51 := by
    have := le_abs_self b; have := neg_abs_le a; omega
  have e4 : e d + p * h - (o d - p * h) = m * 2 ^ k := by
    rw [ho, he, hh, hm]; push_cast; ring
  have e5 : rnd64 (m * 2 ^ k) = m * 2 ^ k := rnd64_exact m k (by rw [abs_of_nonneg hm0]; omega)
  have hcq : (0 : ℚ) < c := by exact_mod_cast hc
  have e6 : (m : ℚ) * 2 ^ k / h = m / c := by
    rw [hh]; field_simp; push_cast; ring
  refine ⟨?_, ?_, ?_⟩
  · simp only [GridDomain.createRounded, GridDomain.create, e1, e2, e3, e4, e5, e6]
    congr 1
    set x : ℚ := m / c with hx
    have hmq : (0 : ℚ) ≤ m := by exact_mod_cast hm0
    have hmq1 : (m : ℚ) ≤ 2 ^ 51 := by exact_mod_cast hm1
    have hcq1 : (c : ℚ) ≤ 2 ^ 50 := by exact_mod_cast hc'
    have hc1 : (1 : ℚ) ≤ c := by exact_mod_cast hc
    have hx0 : 0 ≤ x := by positivity
    have hxc : x * c = m := by rw [hx]; field_simp
    have hxm : x ≤ m := by rw [← hxc]; exact le_mul_of_one_le_right hx0 hc1
    obtain ⟨N, hN⟩ : ∃ N, N = ⌊x⌋ := ⟨_, rfl⟩
    have hNx : (N : ℚ) ≤ x := hN ▸ Int.floor_le x
    have hxN : x < N + 1 := hN ▸ Int.lt_floor_add_one x
    have hN0 : 0 ≤ N := by rw [hN]; exact Int.floor_nonneg.mpr hx0
    have hr := rnd64_int_le x N (by rw [abs_of_nonneg hx0]; linarith) hNx
    have er := rnd64_err x
    rw [abs_of_nonneg hx0, abs_le] at er
    have hN0q : (0 : ℚ) ≤ N := by exact_mod_cast hN0
    have hr0 : 0 ≤ rnd64 x + 1 := by linarith
    have hs := rnd64_int_le (rnd64 x + 1) (N + 1) (by rw [abs_of_nonneg hr0]; linarith [er.2]) (by push_cast; linarith)
    have es := rnd64_err (rnd64 x + 1)
    rw [abs_of_nonneg hr0, abs_le] at es
    push_cast at hs
    -- the distance to the next integer is at least 1/c
    have hgap : x + 1 / c ≤ N + 1 := by
      have h1 : (m : ℚ) < (N + 1) * c := by rw [← hxc]; exact mul_lt_mul_of_pos_right hxN hcq
      have h2 : m + 1 ≤ (N + 1) * c := by exact_mod_cast h1
      have h3 : (m : ℚ) + 1 ≤ (N + 1) * c := by exact_mod_cast h2
      rw [hx, ← add_div, div_le_iff₀ hcq]
      exact h3
    have hlt : rnd64 (rnd64 x + 1) < N + 2 := by
      have h1 : rnd64 (rnd64 x + 1) ≤ x + 1 + (x / 2 ^ 53 + (x + x / 2 ^ 53 + 1) / 2 ^ 53) := by
        have := es.2; have := er.2
        have : (rnd64 x + 1) / 2 ^ 53 ≤ (x + x / 2 ^ 53 + 1) / 2 ^ 53 := by
          apply div_le_div_of_nonneg_right _ (by positivity); linarith
        linarith
      have h2 : x / 2 ^ 53 + (x + x / 2 ^ 53 + 1) / 2 ^ 53 < 1 / c := by
        rw [lt_div_iff₀ hcq]
        have : (x / 2 ^ 53 + (x + x / 2 ^ 53 + 1) / 2 ^ 53) * c =
            (x * c) * (2 / 2 ^ 53 + 1 / 2 ^ 106) + c / 2 ^ 53 := by ring
        rw [this, hxc]
        have h5 : (m : ℚ) * (2 / 2 ^ 53 + 1 / 2 ^ 106) ≤ 2 ^ 51 * (2 / 2 ^ 53 + 1 / 2 ^ 106) :=
          mul_le_mul_of_nonneg_right hmq1 (by positivity)
        have h6 : (c : ℚ) / 2 ^ 53 ≤ 2 ^ 50 / 2 ^ 53 := div_le_div_of_nonneg_right hcq1 (by positivity)
        have h7 : (2 : ℚ) ^ 51 * (2 / 2 ^ 53 + 1 / 2 ^ 106) + 2 ^ 50 / 2 ^ 53 < 1 := by norm_num
        linarith
      linarith
    unfold pyInt
    rw [if_pos (by linarith), if_pos (by linarith)]
    have f1 : ⌊rnd64 (rnd64 x + 1)⌋ = N + 1 := by
      rw [Int.floor_eq_iff]; push_cast; constructor <;> linarith
    have f2 : ⌊x + 1⌋ = N + 1 := by
      rw [Int.floor_eq_iff]; push_cast; constructor <;> linarith
    rw [f1, f2]
  · simp only [GridDomain.createRounded, GridDomain.create, e1, e2]
  · simp only [GridDomain.createRounded, GridDomain.create, e1, e3]

/-- **C61** (partial): as long as the coordinates are below `2^46` cells, rounding changes the number of nodes by at most one. -/
theorem float_size_within_one_partial {dim : ℕ} (o e : Fin dim → ℚ) (h : ℚ) (p : ℕ) (d : Fin dim) (hh : 0 < h)
    (hab : o d ≤ e d) (ho : |o d| + p * h ≤ 2 ^ 46 * h) (he : |e d| + p * h ≤ 2 ^ 46 * h) :
    (GridDomain.createRounded rnd64 o e h p).gridSize d ≤ (GridDomain.create o e h p).gridSize d + 1 ∧
    (GridDomain.create o e h p).gridSize d ≤ (GridDomain.createRounded rnd64 o e h p).gridSize d + 1 := by
  -- in units of the cell size, with U = 2^-53 and M = 2^46
  set P : ℚ := p * h with hP
  have hP0 : 0 ≤ P := by positivity
  have a1 := rnd64_err P
  rw [abs_of_nonneg hP0] at a1
  set q1 := rnd64 P with hq1
  have a2 := rnd64_err (o d - q1)
  set q2 := rnd64 (o d - q1) with hq2
  have a3 := rnd64_err (e d + q1)
  set q3 := rnd64 (e d + q1) with hq3
  have a4 := rnd64_err (q3 - q2)
  set q4 := rnd64 (q3 - q2) with hq4
  have a5 := rnd64_err (q4 / h)
  set q5 := rnd64 (q4 / h) with hq5
  have a6 := rnd64_err (q5 + 1)
  set q6 := rnd64 (q5 + 1) with hq6
  set x : ℚ := (e d + P - (o d - P)) / h with hx
  have hx0 : 0 ≤ x := div_nonneg (by linarith) hh.le
  have hxM : x ≤ 2 ^ 47 := by
    rw [hx, div_le_iff₀ hh]
    have := le_abs_self (e d); have := neg_abs_le (o d)
    linarith
  have hclose : |q6 - (x + 1)| < 1 := by
    have b1 : |q1| ≤ P + P / 2 ^ 53 := by
      rw [abs_le] at a1 ⊢; constructor <;> linarith [a1.1, a1.2]
    have b2 : |o d - q1| ≤ 2 ^ 46 * h + h := by
      have : |o d - q1| ≤ |o d| + |q1| := abs_sub _ _
      have : P ≤ 2 ^ 46 * h := by linarith [abs_nonneg (o d)]
      linarith
    have b3 : |e d + q1| ≤ 2 ^ 46 * h + h := by
      have : |e d + q1| ≤ |e d| + |q1| := abs_add_le _ _
      have : P ≤ 2 ^ 46 * h := by linarith [abs_nonneg (o d)]
      linarith
    have hPM : P ≤ 2 ^ 46 * h := by linarith [abs_nonneg (o d)]
    rw [abs_le] at a1 a2 a3 a4
    have c2 : |q2 - (o d - P)| ≤ h / 50 := by
      rw [abs_le]; constructor <;> linarith [a1.1, a1.2, a2.1, a2.2]
    have c3 : |q3 - (e d + P)| ≤ h / 50 := by
      rw [abs_le]; constructor <;> linarith [a1.1, a1.2, a3.1, a3.2]
    rw [abs_le] at c2 c3
    have hxh : e d + P - (o d - P) = x * h := by rw [hx]; field_simp
    have hxhM : x * h ≤ 2 ^ 47 * h := mul_le_mul_of_nonneg_right hxM hh.le
    have hxh0 : 0 ≤ x * h := by positivity
    have b4 : |q3 - q2| ≤ 2 ^ 47 * h + h := by
      rw [abs_le]; constructor <;> linarith [c2.1, c2.2, c3.1, c3.2]
    have c4 : |q4 - x * h| ≤ h / 10 := by
      rw [abs_le]; constructor <;> linarith [a4.1, a4.2, c2.1, c2.2, c3.1, c3.2]
    have c4' : |q4 / h - x| ≤ 1 / 10 := by
      have : q4 / h - x = (q4 - x * h) / h := by field_simp
      rw [this, abs_div, abs_of_pos hh, div_le_iff₀ hh]
      linarith
    rw [abs_le] at c4'
    have b5 : |q4 / h| ≤ 2 ^ 47 + 1 := by rw [abs_le]; constructor <;> linarith [c4'.1, c4'.2]
    rw [abs_le] at a5
    have c5 : |q5 - x| ≤ 1 / 5 := by rw [abs_le]; constructor <;> linarith [a5.1, a5.2, c4'.1, c4'.2]
    rw [abs_le] at c5
    have b6 : |q5 + 1| ≤ 2 ^ 47 + 2 := by rw [abs_le]; constructor <;> linarith [c5.1, c5.2]
    rw [abs_le] at a6
    rw [abs_lt]; constructor <;> linarith [a6.1, a6.2, c5.1, c5.2]
  rw [abs_lt] at hclose
  have hq60 : 0 ≤ q6 := by linarith [hclose.1]
  simp only [GridDomain.createRounded, GridDomain.create, ← hP, ← hq1, ← hq2, ← hq3, ← hq4, ← hq5, ← hq6, ← hx]
  unfold pyInt
  rw [if_pos hq60, if_pos (by linarith)]
  have f1 : ⌊q6⌋ < ⌊x + 1⌋ + 2 := by
    rw [Int.floor_lt]; push_cast; linarith [Int.lt_floor_add_one (x + 1), hclose.2]
  have f2 : ⌊x + 1⌋ < ⌊q6⌋ + 2 := by
    rw [Int.floor_lt]; push_cast; linarith [Int.lt_floor_add_one q6, hclose.1]
  have f3 : 0 ≤ ⌊q6⌋ := Int.floor_nonneg.mpr hq60
  have f4 : 0 ≤ ⌊x + 1⌋ := Int.floor_nonneg.mpr (by linarith)
  omega

/-- The double nearest to 0.1. -/
def tenth : ℚ := 7205759403792794 * 2 ^ (-56 : ℤ)

/-- The double nearest to 2.2. -/
def twoPointTwo : ℚ := 4953959590107546 * 2 ^ (-51 : ℤ)

theorem rnd_tenth : rnd64 (1 / 10) = tenth := by
  have := rnd64_cert (1 / 10) 7205759403792794 (-56) (by norm_num) (by norm_num) (by decide +kernel)
  unfold tenth; exact_mod_cast this

theorem rnd_twoPointTwo : rnd64 (22 / 10) = twoPointTwo := by
  have := rnd64_cert (22 / 10) 4953959590107546 (-51) (by norm_num) (by norm_num) (by decide +kernel)
  unfold twoPointTwo; exact_mod_cast this

theorem rnd_padding : rnd64 ((3 : ℕ) * tenth) = 5404319552844596 * 2 ^ (-54 : ℤ) := by
  have := rnd64_cert ((3 : ℕ) * tenth) 5404319552844596 (-54) (by norm_num [tenth]) (by norm_num [tenth]) (by decide +kernel)
  exact_mod_cast this

theorem rnd_left : rnd64 (0 - 5404319552844596 * 2 ^ (-54 : ℤ)) = -5404319552844596 * 2 ^ (-54 : ℤ) := by
  have := rnd64_cert (0 - 5404319552844596 * 2 ^ (-54 : ℤ)) (-5404319552844596) (-54) (by norm_num) (by norm_num)
    (by decide +kernel)
  exact_mod_cast this

/-- **C61** (refuted): for the box from 0 to 2.2 with cells of 0.1 and padding 3 a node is lost, 28 instead of 29. -/
theorem float_size_loses_node :
    (GridDomain.createRounded (dim := 1) rnd64 (fun _ => 0) (fun _ => rnd64 (22 / 10)) (rnd64 (1 / 10)) 3).gridSize 0 = 28 ∧
    (GridDomain.create (dim := 1) (fun _ => 0) (fun _ => rnd64 (22 / 10)) (rnd64 (1 / 10)) 3).gridSize 0 = 29 ∧
    (GridDomain.create (dim := 1) (fun _ => (0 : ℚ)) (fun _ => 22 / 10) (1 / 10) 3).gridSize 0 = 29 := by
  rw [rnd_tenth, rnd_twoPointTwo]
  refine ⟨?_, ?_, ?_⟩
  · have e3 : rnd64 (twoPointTwo + 5404319552844596 * 2 ^ (-54 : ℤ)) = 5629499534213120 * 2 ^ (-51 : ℤ) := by
      have := rnd64_cert (twoPointTwo + 5404319552844596 * 2 ^ (-54 : ℤ)) 5629499534213120 (-51)
        (by norm_num [twoPointTwo]) (by norm_num [twoPointTwo]) (by decide +kernel)
      exact_mod_cast this
    have e4 : rnd64 (5629499534213120 * 2 ^ (-51 : ℤ) - -5404319552844596 * 2 ^ (-54 : ℤ)) =
        6305039478318694 * 2 ^ (-51 : ℤ) := by
      have := rnd64_cert (5629499534213120 * 2 ^ (-51 : ℤ) - -5404319552844596 * 2 ^ (-54 : ℤ)) 6305039478318694 (-51)
        (by norm_num) (by norm_num) (by decide +kernel)
      exact_mod_cast this
    have e5 : rnd64 (6305039478318694 * 2 ^ (-51 : ℤ) / tenth) = 7881299347898367 * 2 ^ (-48 : ℤ) := by
      have := rnd64_cert (6305039478318694 * 2 ^ (-51 : ℤ) / tenth) 7881299347898367 (-48)
        (by norm_num [tenth]) (by norm_num [tenth]) (by decide +kernel)
      exact_mod_cast this
    have e6 : rnd64 (7881299347898367 * 2 ^ (-48 : ℤ) + 1) = 8162774324609023 * 2 ^ (-48 : ℤ) := by
      have := rnd64_cert (7881299347898367 * 2 ^ (-48 : ℤ) + 1) 8162774324609023 (-48)
        (by norm_num) (by norm_num) (by decide +kernel)
      exact_mod_cast this
    simp only [GridDomain.createRounded, rnd_padding, rnd_left, e3, e4, e5, e6]
    decide +kernel
  · simp only [GridDomain.create]
    decide +kernel
  · simp only [GridDomain.create]
    decide +kernel

/-- **C61** (refuted): for the unit box with cells of 0.1 the rounded computation gives one node more than the exact one on
the same numbers. -/
theorem float_size_gains_node :
    (GridDomain.createRounded (dim := 1) rnd64 (fun _ => 0) (fun _ => 1) (rnd64 (1 / 10)) 3).gridSize 0 = 17 ∧
    (GridDomain.create (dim := 1) (fun _ => 0) (fun _ => 1) (rnd64 (1 / 10)) 3).gridSize 0 = 16 := by
  rw [rnd_tenth]
  refine ⟨?_, ?_⟩
  · have e3 : rnd64 (1 + 5404319552844596 * 2 ^ (-54 : ℤ)) = 5854679515581645 * 2 ^ (-52 : ℤ) := by
      have := rnd64_cert (1 + 5404319552844596 * 2 ^ (-54 : ℤ)) 5854679515581645 (-52)
        (by norm_num) (by norm_num) (by decide +kernel)
      exact_mod_cast this
    have e4 : rnd64 (5854679515581645 * 2 ^ (-52 : ℤ) - -5404319552844596 * 2 ^ (-54 : ℤ)) =
        7205759403792794 * 2 ^ (-52 : ℤ) := by
      have := rnd64_cert (5854679515581645 * 2 ^ (-52 : ℤ) - -5404319552844596 * 2 ^ (-54 : ℤ)) 7205759403792794 (-52)
        (by norm_num) (by norm_num) (by decide +kernel)
      exact_mod_cast this
    have e5 : rnd64 (7205759403792794 * 2 ^ (-52 : ℤ) / tenth) = 4503599627370496 * 2 ^ (-48 : ℤ) := by
      have := rnd64_cert (7205759403792794 * 2 ^ (-52 : ℤ) / tenth) 4503599627370496 (-48)
        (by norm_num [tenth]) (by norm_num [tenth]) (by decide +kernel)
      exact_mod_cast this
    have e6 : rnd64 (4503599627370496 * 2 ^ (-48 : ℤ) + 1) = 4785074604081152 * 2 ^ (-48 : ℤ) := by
      have := rnd64_cert (4503599627370496 * 2 ^ (-48 : ℤ) + 1) 4785074604081152 (-48)
        (by norm_num) (by norm_num) (by decide +kernel)
      exact_mod_cast this
    simp only [GridDomain.createRounded, rnd_padding, rnd_left, e3, e4, e5, e6]
    decide +kernel
  · simp only [GridDomain.create]
    decide +kernel

/-- A box from -1/4 to 5/2 with cells of 1/16, on the lattice of sixteenths. -/
example : (GridDomain.createRounded (dim := 1) rnd64 (fun _ => -1 / 4) (fun _ => 5 / 2) (1 / 16) 2).gridSize 0 =
    (GridDomain.create (dim := 1) (fun _ => -1 / 4) (fun _ => 5 / 2) (1 / 16 : ℚ) 2).gridSize 0 :=
  (float_size_exact_partial _ _ _ _ 0 (-4) (-4) 40 1 (by norm_num) (by norm_num [Spec.OnLattice])
    (by norm_num [Spec.OnLattice]) (by norm_num [Spec.OnLattice]) (by norm_num) (by norm_num) (by norm_num) (by norm_num)).1

/-- The lossy box above is within reach of the bound. -/
example : (GridDomain.create (dim := 1) (fun _ => 0) (fun _ => 22 / 10) (1 / 10 : ℚ) 3).gridSize 0 ≤
    (GridDomain.createRounded (dim := 1) rnd64 (fun _ => 0) (fun _ => 22 / 10) (1 / 10) 3).gridSize 0 + 1 :=
  (float_size_within_one_partial _ _ _ _ 0 (by norm_num) (by norm_num) (by norm_num) (by norm_num [abs_of_pos])).2

end Hydrax
