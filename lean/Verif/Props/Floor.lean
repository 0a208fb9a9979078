import Verif.Model.Floor
import Verif.Lemmas.RealFns
import Mathlib.Analysis.SpecialFunctions.Integrals.Basic
import Mathlib.Analysis.SpecialFunctions.Trigonometric.Bounds
import Mathlib.Analysis.Real.Pi.Bounds
import Mathlib.Topology.Order.LiminfLimsup

/-!
# The rough floor (C106, C107)
-/

namespace Hydrax

open Filter Topology

/-! ## Specification -/

namespace Spec

/-- `r` is the root mean square of `f` over the half line. -/
def IsRms (f : ℝ → ℝ) (r : ℝ) : Prop :=
  0 ≤ r ∧ Tendsto (fun L => (1 / L) * ∫ x in (0 : ℝ)..L, f x ^ 2) atTop (𝓝 (r ^ 2))

end Spec

/-! ### Averages of products of sines -/

theorem integral_cos_lin (c d L : ℝ) (hc : c ≠ 0) :
    ∫ x in (0 : ℝ)..L, Real.cos (c * x + d) = (Real.sin (c * L + d) - Real.sin d) / c := by
  rw [intervalIntegral.integral_eq_sub_of_hasDerivAt (f := fun x => Real.sin (c * x + d) / c)]
  · simp only [mul_zero, zero_add]; ring
  · intro x _
    have h : HasDerivAt (fun x => c * x + d) c x := by
      simpa using ((hasDerivAt_id x).const_mul c).add_const d
    have := h.sin.div_const c
    exact this.congr_deriv (by field_simp)
  · exact (Continuous.intervalIntegrable (by fun_prop) _ _)

theorem avg_cos (c d : ℝ) (hc : c ≠ 0) :
    Tendsto (fun L => (1 / L) * ∫ x in (0 : ℝ)..L, Real.cos (c * x + d)) atTop (𝓝 0) := by
  have h1 : Tendsto (fun L : ℝ => (1 : ℝ) / L) atTop (𝓝 0) := by
    simpa using tendsto_inv_atTop_zero (𝕜 := ℝ)
  refine squeeze_zero_norm' (a := fun L => 2 / |c| * (1 / L)) ?_ (by simpa using h1.const_mul (2 / |c|))
  filter_upwards [eventually_gt_atTop 0] with L hL
  rw [integral_cos_lin c d L hc, Real.norm_eq_abs, abs_mul, abs_of_pos (one_div_pos.mpr hL), abs_div, mul_comm]
  refine mul_le_mul_of_nonneg_right ?_ (one_div_pos.mpr hL).le
  refine div_le_div_of_nonneg_right ?_ (abs_nonneg c)
  have a := Real.abs_sin_le_one (c * L + d)
  have b := Real.abs_sin_le_one d
  calc |Real.sin (c * L + d) - Real.sin d| ≤ |Real.sin (c * L + d)| + |Real.sin d| := abs_sub _ _
    _ ≤ 2 := by linarith

theorem avg_const (d : ℝ) : Tendsto (fun L => (1 / L) * ∫ _ in (0 : ℝ)..L, d) atTop (𝓝 d) := by
  refine tendsto_const_nhds.congr' ?_
  filter_upwards [eventually_gt_atTop 0] with L hL
  rw [intervalIntegral.integral_const]
  simp only [sub_zero, smul_eq_mul]
  field_simp

theorem avg_sin_sin (a b φ ψ : ℝ) (ha : 0 < a) (hb : 0 < b) :
    Tendsto (fun L => (1 / L) * ∫ x in (0 : ℝ)..L, Real.sin (a * x + φ) * Real.sin (b * x + ψ)) atTop
      (𝓝 (if a = b then Real.cos (φ - ψ) / 2 else 0)) := by
  have e : ∀ L : ℝ, (1 / L) * ∫ x in (0 : ℝ)..L, Real.sin (a * x + φ) * Real.sin (b * x + ψ) =
      ((1 / L) * (∫ x in (0 : ℝ)..L, Real.cos ((a - b) * x + (φ - ψ))) -
        (1 / L) * ∫ x in (0 : ℝ)..L, Real.cos ((a + b) * x + (φ + ψ))) / 2 := by
    intro L
    rw [← mul_sub, ← intervalIntegral.integral_sub (Continuous.intervalIntegrable (by fun_prop) _ _)
      (Continuous.intervalIntegrable (by fun_prop) _ _), mul_div_assoc, ← intervalIntegral.integral_div]
    congr 1
    refine intervalIntegral.integral_congr fun x _ => ?_
    have e1 : (a - b) * x + (φ - ψ) = (a * x + φ) - (b * x + ψ) := by ring
    have e2 : (a + b) * x + (φ + ψ) = (a * x + φ) + (b * x + ψ) := by ring
    simp only [e1, e2, Real.cos_sub, Real.cos_add]
    ring
  simp only [e]
  have h2 := avg_cos (a + b) (φ + ψ) (by positivity)
  split_ifs with h
  · subst h
    simp only [sub_self, zero_mul, zero_add]
    simpa using ((avg_const (Real.cos (φ - ψ))).sub h2).div_const 2
  · simpa using ((avg_cos (a - b) (φ - ψ) (sub_ne_zero.mpr h)).sub h2).div_const 2

/-- The mean square of a sum of sine waves. -/
theorem avg_waves {n : ℕ} (s : Spectral ℝ n) (hk : ∀ i, 0 < s.wavenumbers i) :
    Tendsto (fun L => (1 / L) * ∫ x in (0 : ℝ)..L, s.waves realFns x ^ 2) atTop
      (𝓝 (∑ i, ∑ j, s.amplitudes i * s.amplitudes j *
        (if s.wavenumbers i = s.wavenumbers j then Real.cos (s.phases i - s.phases j) / 2 else 0))) := by
  have e : ∀ L : ℝ, (1 / L) * ∫ x in (0 : ℝ)..L, s.waves realFns x ^ 2 =
      ∑ i, ∑ j, s.amplitudes i * s.amplitudes j * ((1 / L) * ∫ x in (0 : ℝ)..L,
        Real.sin (s.wavenumbers i * x + s.phases i) * Real.sin (s.wavenumbers j * x + s.phases j)) := by
    intro L
    have e1 : ∀ x, s.waves realFns x ^ 2 = ∑ i, ∑ j, s.amplitudes i * s.amplitudes j *
        (Real.sin (s.wavenumbers i * x + s.phases i) * Real.sin (s.wavenumbers j * x + s.phases j)) := by
      intro x
      rw [Spectral.waves, sq, Finset.sum_mul_sum]
      refine Finset.sum_congr rfl fun i _ => Finset.sum_congr rfl fun j _ => ?_
      simp only [realFns_sin]; ring
    simp only [e1]
    rw [intervalIntegral.integral_finsetSum fun i _ => Continuous.intervalIntegrable (by fun_prop) _ _, Finset.mul_sum]
    refine Finset.sum_congr rfl fun i _ => ?_
    rw [intervalIntegral.integral_finsetSum fun i _ => Continuous.intervalIntegrable (by fun_prop) _ _, Finset.mul_sum]
    refine Finset.sum_congr rfl fun j _ => ?_
    rw [intervalIntegral.integral_const_mul]; ring
  simp only [e]
  exact tendsto_finsetSum _ fun i _ => tendsto_finsetSum _ fun j _ => (avg_sin_sin _ _ _ _ (hk i) (hk j)).const_mul _

/-! ### C106: the requested roughness -/

/-- Arguments that make sense: wave lengths positive and in order. -/
structure SpectralArgs.Good (a : SpectralArgs ℝ) : Prop where
  pos : 0 < a.lambdaMin
  le : a.lambdaMin ≤ a.lambdaMax
  rms : 0 ≤ a.rmsHeight

theorem rpow_log10 {x : ℝ} (hx : 0 < x) : (10 : ℝ) ^ log10 realFns x = x := by
  rw [Real.rpow_def_of_pos (by norm_num), log10]
  simp only [realFns_log]
  rw [mul_div_cancel₀ _ (Real.log_pos (by norm_num)).ne', Real.exp_log hx]

theorem spectral_k_pos (n : ℕ) (a : SpectralArgs ℝ) (i : Fin n) : 0 < spectralWavenumber realFns Real.pi n a i :=
  Real.rpow_pos_of_pos (by norm_num) _

theorem spectral_raw_pos (n : ℕ) (a : SpectralArgs ℝ) (i : Fin n) : 0 < spectralRaw realFns Real.pi n a i :=
  Real.rpow_pos_of_pos (spectral_k_pos n a i) _

theorem linspaceAt_mem {a b : ℝ} (h : a ≤ b) {n i : ℕ} (hi : i < n) : linspaceAt a b n i ∈ Set.Icc a b := by
  unfold linspaceAt
  split_ifs with hn
  · exact ⟨le_rfl, h⟩
  · have hn1 : (0 : ℝ) < ((n - 1 : ℕ) : ℝ) := by exact_mod_cast (by omega)
    have h0 : 0 ≤ (i : ℝ) / ((n - 1 : ℕ) : ℝ) := by positivity
    have h1 : (i : ℝ) / ((n - 1 : ℕ) : ℝ) ≤ 1 := by
      rw [div_le_one hn1]; exact_mod_cast (by omega)
    constructor <;> nlinarith

theorem linspaceAt_lt {a b : ℝ} (h : a < b) {n i j : ℕ} (hij : i < j) (hj : j < n) : linspaceAt a b n i < linspaceAt a b n j := by
  unfold linspaceAt
  rw [if_neg (by omega), if_neg (by omega)]
  have hn1 : (0 : ℝ) < ((n - 1 : ℕ) : ℝ) := by exact_mod_cast (by omega)
  have : (i : ℝ) / ((n - 1 : ℕ) : ℝ) < (j : ℝ) / ((n - 1 : ℕ) : ℝ) :=
    div_lt_div_of_pos_right (by exact_mod_cast hij) hn1
  nlinarith

theorem log10_mono {x y : ℝ} (hx : 0 < x) (h : x ≤ y) : log10 realFns x ≤ log10 realFns y :=
  div_le_div_of_nonneg_right (Real.log_le_log hx h) (Real.log_pos (by norm_num)).le

theorem log10_strict {x y : ℝ} (hx : 0 < x) (h : x < y) : log10 realFns x < log10 realFns y :=
  div_lt_div_of_pos_right (Real.log_lt_log hx h) (Real.log_pos (by norm_num))

/-- **C106**: every wave length lies between the two requested ones. -/
theorem spectral_wavelengths (n : ℕ) (a : SpectralArgs ℝ) (h : a.Good) (i : Fin n) :
    let l := 2 * Real.pi / (spectralNew realFns Real.pi n a).wavenumbers i
    a.lambdaMin ≤ l ∧ l ≤ a.lambdaMax ∧ (i.val = 0 → l = a.lambdaMax) ∧ (2 ≤ n → i.val = n - 1 → l = a.lambdaMin) := by
  intro l
  have hpi := Real.pi_pos
  have hmax := h.pos.trans_le h.le
  have k0 : (0 : ℝ) < 2 * Real.pi / a.lambdaMax := by positivity
  have k1 : (0 : ℝ) < 2 * Real.pi / a.lambdaMin := by have := h.pos; positivity
  have kle : 2 * Real.pi / a.lambdaMax ≤ 2 * Real.pi / a.lambdaMin :=
    div_le_div_of_nonneg_left (by positivity) h.pos h.le
  have hm := linspaceAt_mem (log10_mono k0 kle) i.2
  have kp := spectral_k_pos n a i
  have lo : 2 * Real.pi / a.lambdaMax ≤ spectralWavenumber realFns Real.pi n a i := by
    rw [← rpow_log10 k0]; exact Real.rpow_le_rpow_of_exponent_le (by norm_num) hm.1
  have hi : spectralWavenumber realFns Real.pi n a i ≤ 2 * Real.pi / a.lambdaMin := by
    rw [← rpow_log10 k1]; exact Real.rpow_le_rpow_of_exponent_le (by norm_num) hm.2
  have hl : l = 2 * Real.pi / spectralWavenumber realFns Real.pi n a i := rfl
  refine ⟨?_, ?_, ?_, ?_⟩
  · rw [hl, le_div_iff₀ kp]; rw [le_div_iff₀ h.pos] at hi; linarith
  · rw [hl, div_le_iff₀ kp]; rw [div_le_iff₀ hmax] at lo; linarith
  · intro h0
    have : spectralWavenumber realFns Real.pi n a i = 2 * Real.pi / a.lambdaMax := by
      simp only [spectralWavenumber, logspaceAt, linspaceAt, h0, Nat.cast_zero, zero_div, mul_zero, add_zero, ite_self,
        realFns_pow]
      exact rpow_log10 k0
    rw [hl, this]; field_simp
  · intro hn h0
    have hn1 : ((n - 1 : ℕ) : ℝ) ≠ 0 := by exact_mod_cast (by omega)
    have : spectralWavenumber realFns Real.pi n a i = 2 * Real.pi / a.lambdaMin := by
      simp only [spectralWavenumber, logspaceAt, linspaceAt, h0, realFns_pow]
      rw [if_neg (by omega), div_self hn1, mul_one, add_sub_cancel]
      exact rpow_log10 k1
    rw [hl, this]; have := h.pos; field_simp

theorem spectral_k_inj (n : ℕ) (a : SpectralArgs ℝ) (h : a.Good) (hlt : a.lambdaMin < a.lambdaMax) (i j : Fin n)
    (hij : spectralWavenumber realFns Real.pi n a i = spectralWavenumber realFns Real.pi n a j) : i = j := by
  have hpi := Real.pi_pos
  have hmax := h.pos.trans_le h.le
  have k0 : (0 : ℝ) < 2 * Real.pi / a.lambdaMax := by positivity
  have klt : 2 * Real.pi / a.lambdaMax < 2 * Real.pi / a.lambdaMin :=
    div_lt_div_of_pos_left (by positivity) h.pos hlt
  have key : ∀ i j : Fin n, i.val < j.val → spectralWavenumber realFns Real.pi n a i < spectralWavenumber realFns Real.pi n a j :=
    fun i j hlt => Real.rpow_lt_rpow_of_exponent_lt (by norm_num) (linspaceAt_lt (log10_strict k0 klt) hlt j.2)
  rcases lt_trichotomy i.val j.val with h' | h' | h'
  · exact absurd hij (key i j h').ne
  · exact Fin.ext h'
  · exact absurd hij (key j i h').ne'

theorem spectral_rms_sq (n : ℕ) (hn : 0 < n) (a : SpectralArgs ℝ) :
    0 < spectralRms realFns Real.pi n a ∧
      spectralRms realFns Real.pi n a ^ 2 = (∑ i, spectralRaw realFns Real.pi n a i ^ 2) / 2 := by
  have hs : 0 < (∑ i, spectralRaw realFns Real.pi n a i ^ 2) / 2 := by
    refine div_pos (Finset.sum_pos (fun i _ => pow_pos (spectral_raw_pos n a i) 2) ⟨⟨0, hn⟩, Finset.mem_univ _⟩) two_pos
  exact ⟨Real.sqrt_pos.mpr hs, Real.sq_sqrt hs.le⟩

/-- **C106**: the root mean square of the waves over the half line is the requested one. -/
theorem spectral_roughness (n : ℕ) (hn : 0 < n) (a : SpectralArgs ℝ) (h : a.Good) (hlt : a.lambdaMin < a.lambdaMax) :
    Spec.IsRms ((spectralNew realFns Real.pi n a).waves realFns) a.rmsHeight := by
  refine ⟨h.rms, ?_⟩
  have key := avg_waves (spectralNew realFns Real.pi n a) (spectral_k_pos n a)
  obtain ⟨hr, hr2⟩ := spectral_rms_sq n hn a
  convert key using 2
  have e : ∀ i, (∑ j, (spectralNew realFns Real.pi n a).amplitudes i * (spectralNew realFns Real.pi n a).amplitudes j *
      (if (spectralNew realFns Real.pi n a).wavenumbers i = (spectralNew realFns Real.pi n a).wavenumbers j then
        Real.cos ((spectralNew realFns Real.pi n a).phases i - (spectralNew realFns Real.pi n a).phases j) / 2 else 0)) =
      spectralRaw realFns Real.pi n a i ^ 2 * ((a.rmsHeight / spectralRms realFns Real.pi n a) ^ 2 / 2) := by
    intro i
    rw [Finset.sum_eq_single i]
    · rw [if_pos rfl, sub_self, Real.cos_zero]
      simp only [spectralNew]; ring
    · intro j _ hji
      have hne : (spectralNew realFns Real.pi n a).wavenumbers i ≠ (spectralNew realFns Real.pi n a).wavenumbers j :=
        fun hij => hji (spectral_k_inj n a h hlt i j hij).symm
      rw [if_neg hne, mul_zero]
    · simp
  simp only [e]
  rw [← Finset.sum_mul, div_pow, hr2]
  have hs : 0 < ∑ i, spectralRaw realFns Real.pi n a i ^ 2 := by
    have := pow_pos hr 2; rw [hr2] at this; linarith
  field_simp

/-- **C106**: amplitudes fall with the wave number by the power law of a self-affine surface. -/
theorem spectral_power_law (n : ℕ) (hn : 0 < n) (a : SpectralArgs ℝ) (h : 0 < a.rmsHeight) (i j : Fin n) :
    let s := spectralNew realFns Real.pi n a
    0 < s.amplitudes i ∧ s.amplitudes i / s.amplitudes j = (s.wavenumbers i / s.wavenumbers j) ^ (-(a.hurst + 1 / 2)) := by
  intro s
  obtain ⟨hr, -⟩ := spectral_rms_sq n hn a
  refine ⟨mul_pos (spectral_raw_pos n a i) (div_pos h hr), ?_⟩
  change spectralRaw realFns Real.pi n a i * (a.rmsHeight / spectralRms realFns Real.pi n a) /
    (spectralRaw realFns Real.pi n a j * (a.rmsHeight / spectralRms realFns Real.pi n a)) =
    (spectralWavenumber realFns Real.pi n a i / spectralWavenumber realFns Real.pi n a j) ^ _
  rw [mul_div_mul_right _ _ (div_pos h hr).ne', Real.div_rpow (spectral_k_pos n a i).le (spectral_k_pos n a j).le]
  rfl

/-- Why C106 asks for two different wave lengths: with equal ones and the default phases all waves are in step, and the floor is
rougher than requested by the root of their number. -/
theorem spectral_equal_wavelengths (n : ℕ) (hn : 0 < n) (a : SpectralArgs ℝ) (h : a.Good) (heq : a.lambdaMin = a.lambdaMax)
    (hkey : a.keyFactor = 0) :
    Spec.IsRms ((spectralNew realFns Real.pi n a).waves realFns) (Real.sqrt n * a.rmsHeight) := by
  refine ⟨mul_nonneg (Real.sqrt_nonneg _) h.rms, ?_⟩
  have key := avg_waves (spectralNew realFns Real.pi n a) (spectral_k_pos n a)
  obtain ⟨hr, hr2⟩ := spectral_rms_sq n hn a
  have hk : ∀ i j : Fin n, spectralWavenumber realFns Real.pi n a i = spectralWavenumber realFns Real.pi n a j := by
    intro i j
    simp only [spectralWavenumber, logspaceAt, linspaceAt, heq, sub_self, zero_mul, add_zero, ite_self]
  have hraw : ∀ i j : Fin n, spectralRaw realFns Real.pi n a i = spectralRaw realFns Real.pi n a j := by
    intro i j; simp only [spectralRaw, hk i j]
  convert key using 2
  have e : ∀ i j, (spectralNew realFns Real.pi n a).amplitudes i * (spectralNew realFns Real.pi n a).amplitudes j *
      (if (spectralNew realFns Real.pi n a).wavenumbers i = (spectralNew realFns Real.pi n a).wavenumbers j then
        Real.cos ((spectralNew realFns Real.pi n a).phases i - (spectralNew realFns Real.pi n a).phases j) / 2 else 0) =
      spectralRaw realFns Real.pi n a ⟨0, hn⟩ ^ 2 * ((a.rmsHeight / spectralRms realFns Real.pi n a) ^ 2 / 2) := by
    intro i j
    have hkij : (spectralNew realFns Real.pi n a).wavenumbers i = (spectralNew realFns Real.pi n a).wavenumbers j := hk i j
    rw [if_pos hkij]
    simp only [spectralNew, hkey, mul_zero, sub_self, Real.cos_zero]
    rw [hraw i ⟨0, hn⟩, hraw j ⟨0, hn⟩]; ring
  simp only [e, Finset.sum_const, Finset.card_univ, Fintype.card_fin, nsmul_eq_mul]
  have hr3 : spectralRms realFns Real.pi n a ^ 2 = n * spectralRaw realFns Real.pi n a ⟨0, hn⟩ ^ 2 / 2 := by
    rw [hr2, Finset.sum_congr rfl fun i _ => by rw [hraw i ⟨0, hn⟩]]
    simp
  rw [div_pow, hr3, mul_pow, Real.sq_sqrt (Nat.cast_nonneg n)]
  have := spectral_raw_pos n a ⟨0, hn⟩
  have : (0 : ℝ) < n := by exact_mod_cast hn
  field_simp

/-! ### C107: the floor as an obstacle -/

namespace Spec

/-- Euclidean distance in the plane. -/
noncomputable def dist2 (p q : Fin 2 → ℝ) : ℝ := Real.sqrt ((p 0 - q 0) ^ 2 + (p 1 - q 1) ^ 2)

/-- Greatest deviation of a sum of waves. -/
noncomputable def waveBound {n : ℕ} (s : Spectral ℝ n) : ℝ := ∑ i, |s.amplitudes i|

/-- Greatest slope of a sum of waves. -/
noncomputable def waveSlope {n : ℕ} (s : Spectral ℝ n) : ℝ := ∑ i, |s.amplitudes i| * |s.wavenumbers i|

end Spec

theorem waves_bound {n : ℕ} (s : Spectral ℝ n) (x : ℝ) : |s.waves realFns x| ≤ Spec.waveBound s := by
  refine (Finset.abs_sum_le_sum_abs _ _).trans (Finset.sum_le_sum fun i _ => ?_)
  rw [abs_mul]
  exact mul_le_of_le_one_right (abs_nonneg _) (Real.abs_sin_le_one _)

theorem abs_sin_sub_le (a b : ℝ) : |Real.sin a - Real.sin b| ≤ |a - b| := by
  rw [Real.sin_sub_sin, abs_mul, abs_mul, abs_two]
  have h1 : |Real.sin ((a - b) / 2)| ≤ |(a - b) / 2| := Real.abs_sin_le_abs
  have h2 := Real.abs_cos_le_one ((a + b) / 2)
  rw [abs_div, abs_two] at h1
  have := mul_le_mul h1 h2 (abs_nonneg _) (by positivity)
  linarith

theorem waves_lip {n : ℕ} (s : Spectral ℝ n) (x y : ℝ) :
    |s.waves realFns x - s.waves realFns y| ≤ Spec.waveSlope s * |x - y| := by
  rw [Spectral.waves, Spectral.waves, ← Finset.sum_sub_distrib, Spec.waveSlope, Finset.sum_mul]
  refine (Finset.abs_sum_le_sum_abs _ _).trans (Finset.sum_le_sum fun i _ => ?_)
  rw [← mul_sub, abs_mul, mul_assoc]
  refine mul_le_mul_of_nonneg_left ?_ (abs_nonneg _)
  refine (abs_sin_sub_le _ _).trans (le_of_eq ?_)
  rw [← abs_mul]; congr 1; ring

theorem ramp_mem (x : ℝ) : min (max x 0) 1 ∈ Set.Icc (0 : ℝ) 1 := ⟨le_min (le_max_right _ _) zero_le_one, min_le_right _ _⟩

theorem ramp_lip (x y : ℝ) : |min (max x 0) 1 - min (max y 0) 1| ≤ |x - y| := by
  refine (abs_min_sub_min_le_max _ _ _ _).trans ?_
  rw [sub_self, abs_zero, max_eq_left (abs_nonneg _)]
  refine (abs_max_sub_max_le_max _ _ _ _).trans ?_
  rw [sub_self, abs_zero, max_eq_left (abs_nonneg _)]

variable {n m : ℕ}

/-- **C107**: the floor stays within the sum of the amplitudes of its base, and is flat before the transition. -/
theorem floor_height_bounds (g : FloorGeom ℝ) (st : FloorState ℝ n m) (x : ℝ) :
    |floorHeight realFns g st x - st.bumps.scaleBase| ≤ Spec.waveBound st.bumps ∧
    (0 < g.width → x ≤ g.xMin → x ≤ g.xMax → floorHeight realFns g st x = st.bumps.scaleBase) := by
  constructor
  · unfold floorHeight
    simp only
    split_ifs
    · rw [add_sub_cancel_left]; exact waves_bound _ _
    · rw [add_sub_cancel_left, abs_mul, abs_of_nonneg (ramp_mem _).1]
      exact (mul_le_of_le_one_right (abs_nonneg _) (ramp_mem _).2).trans (waves_bound _ _)
  · intro hw h1 h2
    unfold floorHeight
    simp only
    rw [if_neg (not_lt.mpr h2), max_eq_right (div_nonpos_of_nonpos_of_nonneg (sub_nonpos.mpr h1) hw.le),
      min_eq_left zero_le_one, mul_zero, add_zero]

/-- **C107**: what the sign means: material more than the greatest bump above the base is free, material as far below is inside;
a point is inside exactly if it lies under the surface point on its vertical. -/
theorem floor_sign (g : FloorGeom ℝ) (st : FloorState ℝ n m) (p : Fin 2 → ℝ) :
    (st.bumps.scaleBase + Spec.waveBound st.bumps < p 1 → 0 < floorDist realFns g st p) ∧
    (p 1 < st.bumps.scaleBase - Spec.waveBound st.bumps → floorDist realFns g st p < 0) ∧
    (∀ y, floorDist realFns g st ![p 0, y] = 0 → (floorDist realFns g st p < 0 ↔ p 1 < y)) := by
  have hb := abs_le.mp (floor_height_bounds g st (p 0)).1
  refine ⟨fun h => ?_, fun h => ?_, fun y hy => ?_⟩
  · unfold floorDist; linarith [hb.2]
  · unfold floorDist; linarith [hb.1]
  · unfold floorDist at hy ⊢
    simp only [Matrix.cons_val_zero, Matrix.cons_val_one] at hy
    constructor <;> intro h <;> linarith

/-- Greatest slope of the floor, transition included. -/
noncomputable def floorSlope (g : FloorGeom ℝ) (st : FloorState ℝ n m) : ℝ :=
  Spec.waveSlope st.bumps + Spec.waveBound st.bumps / g.width

theorem floor_lip (g : FloorGeom ℝ) (st : FloorState ℝ n m) (hw : 0 < g.width) (x y : ℝ) (hs : x ≤ g.xMax ↔ y ≤ g.xMax) :
    |floorHeight realFns g st x - floorHeight realFns g st y| ≤ floorSlope g st * |x - y| := by
  have hb0 : 0 ≤ Spec.waveBound st.bumps := (abs_nonneg _).trans (waves_bound st.bumps 0)
  by_cases hx : x ≤ g.xMax
  · have hy := hs.mp hx
    unfold floorHeight
    simp only
    rw [if_neg (not_lt.mpr hx), if_neg (not_lt.mpr hy), add_sub_add_left_eq_sub]
    set W := st.bumps.waves realFns (x - g.xMin)
    set V := st.bumps.waves realFns (y - g.xMin)
    set a := min (max ((x - g.xMin) / g.width) 0) 1 with ha
    set b := min (max ((y - g.xMin) / g.width) 0) 1 with hb
    have h1 : |W - V| ≤ Spec.waveSlope st.bumps * |x - y| := by
      have := waves_lip st.bumps (x - g.xMin) (y - g.xMin)
      rwa [sub_sub_sub_cancel_right] at this
    have h2 : |a - b| ≤ |x - y| / g.width := by
      have := ramp_lip ((x - g.xMin) / g.width) ((y - g.xMin) / g.width)
      rwa [← sub_div, sub_sub_sub_cancel_right, abs_div, abs_of_pos hw] at this
    have ha1 : |a| ≤ 1 := abs_le.mpr ⟨by linarith [(ramp_mem ((x - g.xMin) / g.width)).1], (ramp_mem _).2⟩
    have hV : |V| ≤ Spec.waveBound st.bumps := waves_bound _ _
    have e : W * a - V * b = (W - V) * a + V * (a - b) := by ring
    rw [e]
    refine (abs_add_le _ _).trans ?_
    rw [abs_mul, abs_mul]
    have t1 : |W - V| * |a| ≤ Spec.waveSlope st.bumps * |x - y| :=
      (mul_le_of_le_one_right (abs_nonneg _) ha1).trans h1
    have t2 : |V| * |a - b| ≤ Spec.waveBound st.bumps * (|x - y| / g.width) :=
      mul_le_mul hV h2 (abs_nonneg _) hb0
    unfold floorSlope
    calc _ ≤ Spec.waveSlope st.bumps * |x - y| + Spec.waveBound st.bumps * (|x - y| / g.width) := add_le_add t1 t2
      _ = _ := by ring
  · have hy : ¬y ≤ g.xMax := fun h => hx (hs.mpr h)
    unfold floorHeight
    simp only
    rw [if_pos (not_le.mp hx), if_pos (not_le.mp hy), add_sub_add_left_eq_sub]
    have h1 := waves_lip st.bumps (x - g.xMax) (y - g.xMax)
    rw [sub_sub_sub_cancel_right] at h1
    refine h1.trans (mul_le_mul_of_nonneg_right ?_ (abs_nonneg _))
    unfold floorSlope
    have : 0 ≤ Spec.waveBound st.bumps / g.width := by positivity
    linarith

/-- **C107**: on either side of `x_max` the number returned lies between the distance to the surface and that distance times
`√(1 + slope²)`: it never calls a point closer than it is, and is attained by the surface point on the vertical. -/
theorem floor_distance_partial (g : FloorGeom ℝ) (st : FloorState ℝ n m) (hw : 0 < g.width) (p : Fin 2 → ℝ) :
    (∃ q, floorDist realFns g st q = 0 ∧ Spec.dist2 p q = |floorDist realFns g st p|) ∧
    ∀ q, floorDist realFns g st q = 0 → (p 0 ≤ g.xMax ↔ q 0 ≤ g.xMax) →
      |floorDist realFns g st p| ≤ Real.sqrt (1 + floorSlope g st ^ 2) * Spec.dist2 p q := by
  constructor
  · refine ⟨![p 0, floorHeight realFns g st (p 0)], ?_, ?_⟩
    · simp [floorDist]
    · rw [Spec.dist2]
      simp only [Matrix.cons_val_zero, Matrix.cons_val_one, sub_self]
      rw [zero_pow two_ne_zero, zero_add, Real.sqrt_sq_eq_abs]; rfl
  · intro q hq hs
    have hl := floor_lip g st hw (p 0) (q 0) hs
    have hq1 : q 1 = floorHeight realFns g st (q 0) := by unfold floorDist at hq; linarith
    set s := floorSlope g st
    set u := p 0 - q 0
    set v := p 1 - q 1
    have e : floorDist realFns g st p = v - (floorHeight realFns g st (p 0) - floorHeight realFns g st (q 0)) := by
      unfold floorDist; simp only [v]; rw [hq1]; ring
    have h1 : |floorDist realFns g st p| ≤ |v| + s * |u| := by
      rw [e]; exact (abs_sub _ _).trans (by linarith)
    rw [Spec.dist2, ← Real.sqrt_mul (by positivity)]
    refine Real.le_sqrt_of_sq_le ?_
    have h2 : |floorDist realFns g st p| ^ 2 ≤ (|v| + s * |u|) ^ 2 := pow_le_pow_left₀ (abs_nonneg _) h1 2
    have hu : |u| ^ 2 = u ^ 2 := sq_abs u
    have hv : |v| ^ 2 = v ^ 2 := sq_abs v
    change |floorDist realFns g st p| ^ 2 ≤ (1 + s ^ 2) * (u ^ 2 + v ^ 2)
    rw [← hu, ← hv]
    nlinarith [sq_nonneg (|u| - s * |v|)]

/-- **C107**: friction is positive, and within the sum of the amplitudes of its base unless the floor of `1e-6` is reached. -/
theorem floor_friction_bounds (g : FloorGeom ℝ) (st : FloorState ℝ n m) (p : Fin 2 → ℝ) :
    0 < floorFriction realFns g st p ∧
    (∀ f, st.frictions = some f → 1 / 10 ^ 6 ≤ f.scaleBase - Spec.waveBound f →
      |floorFriction realFns g st p - f.scaleBase| ≤ Spec.waveBound f) ∧
    (st.frictions = none → floorFriction realFns g st p = 1 / 2) := by
  refine ⟨?_, ?_, ?_⟩
  · unfold floorFriction
    split
    · norm_num
    · exact lt_of_lt_of_le (by norm_num) (le_max_left _ _)
  · intro f hf hb
    unfold floorFriction
    rw [hf]
    simp only
    generalize (if p 0 > g.xMax then p 0 - g.xMax else p 0 - g.xMin) = x
    have h := waves_bound f x
    have h' := abs_le.mp h
    rw [Spectral.call, max_eq_right (by linarith), add_sub_cancel_left]
    exact h
  · intro hf
    unfold floorFriction
    rw [hf]

/-- **C107**: the box of the obstacle holds every point of its surface that is less than a thousand kilometres away. -/
theorem floor_box (g : FloorGeom ℝ) (st : FloorState ℝ n m) (p : Fin 2 → ℝ) (hp : floorDist realFns g st p = 0)
    (hx : |p 0| ≤ 10 ^ 6) (hy : st.bumps.scaleBase + Spec.waveBound st.bumps ≤ 10 ^ 6) :
    ∀ a, floorBoxMin st a ≤ p a ∧ p a ≤ floorBoxMax a := by
  have hb := abs_le.mp (floor_height_bounds g st (p 0)).1
  have h1 : p 1 = floorHeight realFns g st (p 0) := by unfold floorDist at hp; linarith
  have hx' := abs_le.mp hx
  intro a
  match a with
  | 0 => exact ⟨hx'.1, hx'.2⟩
  | 1 =>
    have e : floorBoxMin st 1 = st.bumps.scaleBase - Spec.waveBound st.bumps := rfl
    have e' : floorBoxMax (K := ℝ) 1 = 10 ^ 6 := rfl
    rw [e, e', h1]
    exact ⟨by linarith [hb.1], by linarith [hb.2]⟩

/-- Why C107 is partial: behind `x_max` the waves start afresh without a transition, so the floor has a step wherever they do not
happen to meet. -/
theorem floor_step (g : FloorGeom ℝ) (st : FloorState ℝ n m)
    (hne : floorHeight realFns g st g.xMax ≠ st.bumps.scaleBase + st.bumps.waves realFns 0) :
    ¬ContinuousAt (floorHeight realFns g st) g.xMax := by
  intro hc
  have h1 : Tendsto (floorHeight realFns g st) (𝓝[>] g.xMax) (𝓝 (floorHeight realFns g st g.xMax)) :=
    hc.tendsto.mono_left nhdsWithin_le_nhds
  have hcont : Continuous fun x => st.bumps.scaleBase + st.bumps.waves realFns (x - g.xMax) := by
    unfold Spectral.waves
    simp only [realFns_sin]
    fun_prop
  have h2 : Tendsto (floorHeight realFns g st) (𝓝[>] g.xMax) (𝓝 (st.bumps.scaleBase + st.bumps.waves realFns 0)) := by
    have := (hcont.tendsto g.xMax).mono_left (nhdsWithin_le_nhds (s := Set.Ioi g.xMax))
    rw [sub_self] at this
    refine this.congr' ?_
    filter_upwards [self_mem_nhdsWithin] with x hx
    exact (if_pos (show x > g.xMax from hx)).symm
  exact hne (tendsto_nhds_unique h1 h2)

/-- One wave of amplitude 2 and wave number 1. -/
def exWave : Spectral ℝ 1 := { amplitudes := fun _ => 2, wavenumbers := fun _ => 1, phases := fun _ => 0, scaleBase := 0 }

theorem exWave_waves (x : ℝ) : exWave.waves realFns x = 2 * Real.sin x := by simp [Spectral.waves, exWave]

/-- A floor of that wave, ending on a crest. -/
noncomputable def exFloorGeom : FloorGeom ℝ := { xMin := 0, xMax := Real.pi / 2, width := 1 }

/-- Its state. -/
def exFloorState : FloorState ℝ 1 1 := { bumps := exWave, frictions := some exWave }

theorem exFloor_past {x : ℝ} (h : Real.pi / 2 < x) :
    floorHeight realFns exFloorGeom exFloorState x = 2 * Real.sin (x - Real.pi / 2) := by
  have e : floorHeight realFns exFloorGeom exFloorState x = exWave.scaleBase + exWave.waves realFns (x - Real.pi / 2) :=
    if_pos h
  rw [e, exWave_waves]; simp [exWave]

/-- Why C107 is partial: the number returned is the vertical distance; here a point of the floor is nearer. -/
theorem floor_not_distance : ∃ (g : FloorGeom ℝ) (st : FloorState ℝ 1 1) (p q : Fin 2 → ℝ),
    0 < g.width ∧ floorDist realFns g st q = 0 ∧ Spec.dist2 p q < floorDist realFns g st p := by
  refine ⟨exFloorGeom, exFloorState, ![Real.pi / 2 + (Real.pi / 2 + Real.pi), 0], ![Real.pi / 2 + Real.pi, 0], ?_, ?_, ?_⟩
  · norm_num [exFloorGeom]
  · unfold floorDist
    simp only [Matrix.cons_val_zero, Matrix.cons_val_one]
    rw [exFloor_past (by linarith [Real.pi_pos]), add_sub_cancel_left, Real.sin_pi]; norm_num
  · unfold floorDist Spec.dist2
    simp only [Matrix.cons_val_zero, Matrix.cons_val_one]
    rw [exFloor_past (by linarith [Real.pi_pos]), add_sub_cancel_left, Real.sin_add_pi, Real.sin_pi_div_two]
    have e : (Real.pi / 2 + (Real.pi / 2 + Real.pi) - (Real.pi / 2 + Real.pi)) ^ 2 + ((0 : ℝ) - 0) ^ 2 = (Real.pi / 2) ^ 2 := by ring
    rw [e, Real.sqrt_sq (by linarith [Real.pi_pos])]
    linarith [Real.pi_lt_d2]

example (x : ℝ) (hx : |x| ≤ 10 ^ 6) :
    floorBoxMin exFloorState 1 ≤ floorHeight realFns exFloorGeom exFloorState x := by
  have := floor_box exFloorGeom exFloorState ![x, floorHeight realFns exFloorGeom exFloorState x] (by simp [floorDist]) hx
    (by norm_num [exFloorState, exWave, Spec.waveBound]) 1
  exact this.1

example : ¬ContinuousAt (floorHeight realFns exFloorGeom exFloorState) exFloorGeom.xMax := by
  refine floor_step _ _ ?_
  have e : floorHeight realFns exFloorGeom exFloorState exFloorGeom.xMax =
      exWave.scaleBase + exWave.waves realFns (Real.pi / 2 - 0) * min (max ((Real.pi / 2 - 0) / 1) 0) 1 := if_neg (lt_irrefl _)
  have e' : exFloorState.bumps = exWave := rfl
  rw [e, e', exWave_waves, exWave_waves]
  have : (1 : ℝ) ≤ Real.pi / 2 := by linarith [Real.pi_gt_three]
  rw [sub_zero, div_one, max_eq_left (by linarith), min_eq_right this, Real.sin_pi_div_two, Real.sin_zero]
  norm_num [exWave]

example (p : Fin 2 → ℝ) : 0 < floorFriction realFns exFloorGeom exFloorState p := (floor_friction_bounds _ _ p).1

example (p q : Fin 2 → ℝ) (h : floorDist realFns exFloorGeom exFloorState q = 0) (hs : p 0 ≤ Real.pi / 2 ↔ q 0 ≤ Real.pi / 2) :
    |floorDist realFns exFloorGeom exFloorState p| ≤ Real.sqrt (1 + 4 ^ 2) * Spec.dist2 p q := by
  have := (floor_distance_partial exFloorGeom exFloorState (by norm_num [exFloorGeom]) p).2 q h hs
  have e : floorSlope exFloorGeom exFloorState = 4 := by
    norm_num [floorSlope, Spec.waveSlope, Spec.waveBound, exFloorState, exFloorGeom, exWave]
  rwa [e] at this

example : floorHeight realFns exFloorGeom exFloorState (-1) = 0 :=
  (floor_height_bounds exFloorGeom exFloorState (-1)).2 (by norm_num [exFloorGeom]) (by norm_num [exFloorGeom])
    (by have := Real.pi_pos; simp only [exFloorGeom]; linarith)

/-- The arguments `SpectralSetup()` is called with by default. -/
noncomputable def exSpectral : SpectralArgs ℝ :=
  { hurst := 8 / 10, lambdaMin := 1 / 10, lambdaMax := 2, rmsHeight := 5 / 100, scaleBase := 0, keyFactor := 0 }

theorem exSpectral_good : exSpectral.Good := by constructor <;> norm_num [exSpectral]

example : Spec.IsRms ((spectralNew realFns Real.pi 16 exSpectral).waves realFns) (5 / 100) :=
  spectral_roughness 16 (by norm_num) exSpectral exSpectral_good (by norm_num [exSpectral])

example (i : Fin 16) : 1 / 10 ≤ 2 * Real.pi / (spectralNew realFns Real.pi 16 exSpectral).wavenumbers i :=
  (spectral_wavelengths 16 exSpectral exSpectral_good i).1

end Hydrax
