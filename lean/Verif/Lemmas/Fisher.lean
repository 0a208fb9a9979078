import Mathlib.Tactic.LinearCombination
import Verif.Lemmas.Stencil

/-!
# The gradient of the weights, measured against the weights (helper lemmas)
-/

set_option linter.unusedSectionVars false

namespace Hydrax

section
variable {K : Type*} [Field K] [LinearOrder K] [IsStrictOrderedRing K]

/-- A weighted mean and gradients of the weights are bounded by the weighted mean square. -/
theorem weighted_bessel {ι κ : Type*} [Fintype κ] [DecidableEq κ] (S : Finset ι) (w u : ι → K) (G : ι → κ → K) (f q : κ → K)
    (hw : ∀ i ∈ S, 0 ≤ w i) (hz : ∀ i ∈ S, w i = 0 → ∀ k, G i k = 0) (h1 : ∑ i ∈ S, w i = 1)
    (hG : ∀ k, ∑ i ∈ S, G i k = 0) (hF : ∀ k l, ∑ i ∈ S, G i k * G i l / w i = if k = l then f k else 0)
    (hq : ∀ k, 0 ≤ q k) (hqf : ∀ k, q k * f k ≤ 1) :
    (∑ i ∈ S, w i * u i) ^ 2 + ∑ k, q k * (∑ i ∈ S, G i k * u i) ^ 2 ≤ ∑ i ∈ S, w i * u i ^ 2 := by
  set m := ∑ i ∈ S, w i * u i with hm
  set g : κ → K := fun k => ∑ i ∈ S, G i k * u i with hg
  have hpos : 0 ≤ ∑ i ∈ S, w i * (u i - m - ∑ k, q k * g k * (G i k / w i)) ^ 2 :=
    Finset.sum_nonneg fun i hi => mul_nonneg (hw i hi) (sq_nonneg _)
  have hexp : ∀ i ∈ S, w i * (u i - m - ∑ k, q k * g k * (G i k / w i)) ^ 2 =
      w i * u i ^ 2 - 2 * m * (w i * u i) + m ^ 2 * w i - 2 * ∑ k, q k * g k * (G i k * u i)
        + 2 * m * ∑ k, q k * g k * G i k + ∑ k, ∑ l, (q k * g k) * (q l * g l) * (G i k * G i l / w i) := by
    intro i hi
    have e1 : w i * ∑ k, q k * g k * (G i k / w i) = ∑ k, q k * g k * G i k := by
      rw [Finset.mul_sum]
      refine Finset.sum_congr rfl fun k _ => ?_
      by_cases h0 : w i = 0
      · rw [h0, hz i hi h0 k]; ring
      · field_simp
    have e2 : w i * (∑ k, q k * g k * (G i k / w i)) ^ 2 = ∑ k, ∑ l, (q k * g k) * (q l * g l) * (G i k * G i l / w i) := by
      rw [pow_two, ← mul_assoc, e1, Finset.sum_mul_sum]
      refine Finset.sum_congr rfl fun k _ => Finset.sum_congr rfl fun l _ => ?_
      ring
    have e3 : ∑ k, q k * g k * (G i k * u i) = (∑ k, q k * g k * G i k) * u i := by
      rw [Finset.sum_mul]
      exact Finset.sum_congr rfl fun k _ => by ring
    rw [e3, ← e2]
    linear_combination (-2 * u i + 2 * m) * e1
  rw [Finset.sum_congr rfl hexp] at hpos
  rw [Finset.sum_add_distrib, Finset.sum_add_distrib, Finset.sum_sub_distrib, Finset.sum_add_distrib,
    Finset.sum_sub_distrib, ← Finset.mul_sum, ← Finset.mul_sum, ← Finset.mul_sum, ← Finset.mul_sum] at hpos
  have s1 : ∑ i ∈ S, ∑ k, q k * g k * (G i k * u i) = ∑ k, q k * g k ^ 2 := by
    rw [Finset.sum_comm]
    refine Finset.sum_congr rfl fun k _ => ?_
    rw [← Finset.mul_sum]
    change q k * g k * g k = _
    ring
  have s2 : ∑ i ∈ S, ∑ k, q k * g k * G i k = 0 := by
    rw [Finset.sum_comm]
    refine Finset.sum_eq_zero fun k _ => ?_
    rw [← Finset.mul_sum, hG, mul_zero]
  have s3 : ∑ i ∈ S, ∑ k, ∑ l, (q k * g k) * (q l * g l) * (G i k * G i l / w i) = ∑ k, (q k * g k) ^ 2 * f k := by
    rw [Finset.sum_comm]
    refine Finset.sum_congr rfl fun k _ => ?_
    rw [Finset.sum_comm, Finset.sum_eq_single k]
    · rw [← Finset.mul_sum, hF, if_pos rfl]; ring
    · intro l _ hl
      rw [← Finset.mul_sum, hF, if_neg (Ne.symm hl), mul_zero]
    · intro hk; exact absurd (Finset.mem_univ k) hk
  rw [s1, s2, s3, h1, ← hm] at hpos
  have hs3 : ∑ k, (q k * g k) ^ 2 * f k ≤ ∑ k, q k * g k ^ 2 := by
    refine Finset.sum_le_sum fun k _ => ?_
    have := mul_le_mul_of_nonneg_left (hqf k) (mul_nonneg (hq k) (sq_nonneg (g k)))
    linarith
  change m ^ 2 + ∑ k, q k * g k ^ 2 ≤ _
  linarith

end

section
variable {K : Type*} [Field K] [LinearOrder K] [IsStrictOrderedRing K] [FloorRing K] {dim : ℕ}

/-- The squared derivative of the one-dimensional weights, relative to the weights. -/
def fisher (ker : Kernel) (c t : K) : K :=
  ∑ j : Fin (winLen ker), dbasis1 c ker (t - ((baseId ker t + off ker j : ℤ) : K)) ^ 2 /
    basis1 ker (t - ((baseId ker t + off ker j : ℤ) : K))

theorem fisher_le (ker : Kernel) (hker : ker ≠ .linear) (c t : K) : secondMoment ker t * fisher ker c t ≤ 3 / 2 * c ^ 2 := by
  have h0 := frac_nonneg ker t
  have h1 := frac_lt_one ker t
  unfold fisher
  cases ker
  · exact absurd rfl hker
  · rw [stencil_sum_quadratic t (fun x => dbasis1 c .quadratic x ^ 2 / basis1 .quadratic x)]
    simp only [basis1, dbasis1, secondMoment]
    rw [quadraticBasis_0 h0 h1, quadraticBasis_1 h0 h1, quadraticBasis_2 h0 h1,
      quadraticDBasis_0 h0 h1, quadraticDBasis_1 h0 h1, quadraticDBasis_2 h0 h1]
    generalize frac .quadratic t = f at *
    have hc := sq_nonneg c
    have a0 : (c * (f - 1)) ^ 2 / ((1 - f) ^ 2 / 2) ≤ 2 * c ^ 2 :=
      div_le_of_le_mul₀ (by positivity) (by positivity) (le_of_eq (by ring))
    have a2 : (c * f) ^ 2 / (f ^ 2 / 2) ≤ 2 * c ^ 2 :=
      div_le_of_le_mul₀ (by positivity) (by positivity) (le_of_eq (by ring))
    have hf : 0 ≤ f * (1 - f) := mul_nonneg h0 (by linarith)
    have a1 : (c * (1 - 2 * f)) ^ 2 / (3 / 4 - (f - 1 / 2) ^ 2) ≤ 2 * c ^ 2 := by
      refine div_le_of_le_mul₀ (by linarith) (by positivity) ?_
      have := mul_nonneg hc hf
      linarith
    linarith
  · rw [stencil_sum_cubic t (fun x => dbasis1 c .cubic x ^ 2 / basis1 .cubic x)]
    simp only [basis1, dbasis1, secondMoment]
    rw [cubicBasis_0 h0 h1, cubicBasis_1 h0 h1, cubicBasis_2 h0 h1, cubicBasis_3 h0 h1,
      cubicDBasis_0 h0 h1, cubicDBasis_1 h0 h1, cubicDBasis_2 h0 h1, cubicDBasis_3 h0 h1]
    generalize frac .cubic t = f at *
    have hc := sq_nonneg c
    have hg : 0 ≤ 1 - f := by linarith
    have a0 : (c * (-(1 - f) ^ 2 / 2)) ^ 2 / ((1 - f) ^ 3 / 6) ≤ 3 / 2 * c ^ 2 * (1 - f) :=
      div_le_of_le_mul₀ (by positivity) (by positivity) (le_of_eq (by ring))
    have a3 : (c * (f ^ 2 / 2)) ^ 2 / (f ^ 3 / 6) ≤ 3 / 2 * c ^ 2 * f :=
      div_le_of_le_mul₀ (by positivity) (by positivity) (le_of_eq (by ring))
    have key : ∀ x : K, 0 ≤ x → x ≤ 1 →
        (c * (3 / 2 * x ^ 2 - 2 * x)) ^ 2 / (x ^ 3 / 2 - x ^ 2 + 2 / 3) ≤ 3 * c ^ 2 * x := by
      intro x hx hx1
      have hx' : 0 ≤ 1 - x := by linarith
      have hb : 0 ≤ x ^ 3 / 2 - x ^ 2 + 2 / 3 := by
        have h2 : x ^ 2 ≤ 1 := pow_le_one₀ hx hx1
        have : 0 ≤ x * (1 - x) ^ 2 := by positivity
        nlinarith
      refine div_le_of_le_mul₀ hb (by positivity) ?_
      have hp : 0 ≤ 1 - (3 * x ^ 3 - 12 * x ^ 2 + 16 * x - 7) := by
        have : 1 - (3 * x ^ 3 - 12 * x ^ 2 + 16 * x - 7) = 1 + (1 - x) * (7 + 3 * (x * x) - 9 * x) := by ring
        have h3 : 0 ≤ 7 + 3 * (x * x) - 9 * x := by nlinarith [sq_nonneg (x - 1)]
        have := mul_nonneg hx' h3
        linarith
      have := mul_nonneg (mul_nonneg hc hx) hp
      linarith
    have a1 := key f h0 h1.le
    have a2 := key (1 - f) hg (by linarith)
    have e2 : (c * (3 / 2 * (1 - f) ^ 2 - 2 * (1 - f))) ^ 2 / ((1 - f) ^ 3 / 2 - (1 - f) ^ 2 + 2 / 3) =
        (c * (-3 / 2 * f ^ 2 + f + 1 / 2)) ^ 2 / (-f ^ 3 / 2 + f ^ 2 / 2 + f / 2 + 1 / 6) := by
      congr 1 <;> ring
    rw [e2] at a2
    linarith

variable {ker : Kernel} {g : GridDomain K dim} {xp : Fin dim → K}

/-- Gradients of a complete stencil relative to its weights. -/
theorem stencil_fisher (hdim : dim = 2 ∨ dim = 3) (h : StencilInside ker g xp) (k l : Fin 3) :
    ∑ s : Fin (windowSize ker dim), (computeSingle ker g xp s).shapeGrad k * (computeSingle ker g xp s).shapeGrad l /
        (computeSingle ker g xp s).shapeVal =
      if k = l then (if hk : k.val < dim then fisher ker g.invCellSize (basePos g xp ⟨k.val, hk⟩) else 0) else 0 := by
  rw [Finset.sum_congr rfl (fun s _ => by
    rw [computeSingle_grad ker g xp s (h s s.isLt), computeSingle_val ker g xp s (h s s.isLt)])]
  by_cases hk : k.val < dim
  swap
  · simp [pad3_ge _ k hk, hk]
  by_cases hl : l.val < dim
  swap
  · have hkl : k ≠ l := fun e => hl (e ▸ hk)
    simp [pad3_ge _ l hl, hkl]
  simp only [pad3_lt _ k hk, pad3_lt _ l hl, tensorGrad_eq hdim, ← Finset.prod_mul_distrib, ← Finset.prod_div_distrib]
  rw [sum_stencil_sep ker g xp (fun d x =>
      (if d = ⟨k.val, hk⟩ then dbasis1 g.invCellSize ker x else basis1 ker x) *
      (if d = ⟨l.val, hl⟩ then dbasis1 g.invCellSize ker x else basis1 ker x) / basis1 ker x)]
  have hbb : ∀ x : K, basis1 ker x * basis1 ker x / basis1 ker x = basis1 ker x := by
    intro x
    by_cases h0 : basis1 ker x = 0
    · rw [h0]; simp
    · field_simp
  have hdb : ∀ x : K, dbasis1 g.invCellSize ker x * basis1 ker x / basis1 ker x = dbasis1 g.invCellSize ker x := by
    intro x
    by_cases h0 : basis1 ker x = 0
    · rw [h0, dbasis_eq_zero_of_basis ker _ _ h0]; simp
    · field_simp
  by_cases hkl : k = l
  · subst hkl
    rw [if_pos rfl, dif_pos hk, Finset.prod_eq_single (⟨k.val, hk⟩ : Fin dim)]
    · simp only [if_true, fisher, pow_two]
    · intro d _ hd
      simp only [if_neg hd, hbb]
      exact sum_basis ker (basePos g xp d)
    · intro hx; exact absurd (Finset.mem_univ _) hx
  · rw [if_neg hkl]
    apply Finset.prod_eq_zero (Finset.mem_univ (⟨k.val, hk⟩ : Fin dim))
    have hne : (⟨k.val, hk⟩ : Fin dim) ≠ ⟨l.val, hl⟩ := fun e => hkl (Fin.ext (Fin.mk.inj e))
    simp only [if_true, if_neg hne, hdb]
    exact sum_dbasis ker g.invCellSize (basePos g xp ⟨k.val, hk⟩)

end
end Hydrax
