import Verif.Props.SdfTable
import Mathlib.Analysis.Calculus.Deriv.Slope
import Mathlib.Analysis.Calculus.Deriv.Prod
import Mathlib.Analysis.Calculus.MeanValue
import Mathlib.Topology.MetricSpace.HausdorffDistance
import Mathlib.Analysis.SpecialFunctions.Sqrt
import Mathlib.Analysis.InnerProductSpace.Calculus

/-!
# Contact normals (C83)
-/

set_option linter.unusedSectionVars false

namespace Hydrax

open Spec

section
variable {n : ℕ}

/-! ### Signed distances are 1-Lipschitz -/

theorem distTo_le {S : Set (Fin n → ℝ)} {y : Fin n → ℝ} (hy : y ∈ S) (x : Fin n → ℝ) : distTo S x ≤ eDist x y :=
  csInf_le (bddBelow_dists S x) ⟨y, hy, rfl⟩

theorem distTo_lip {S : Set (Fin n → ℝ)} (x y : Fin n → ℝ) : distTo S x ≤ distTo S y + eDist x y := by
  by_cases hS : S.Nonempty
  · obtain ⟨z0, hz0⟩ := hS
    have : distTo S x - eDist x y ≤ distTo S y := by
      refine le_csInf ⟨_, z0, hz0, rfl⟩ ?_
      rintro _ ⟨z, hz, rfl⟩
      have h1 := distTo_le hz x
      have h2 := eDist_triangle x y z
      linarith
    linarith
  · have e : ∀ x, distTo S x = 0 := by
      intro x
      have : {r | ∃ y ∈ S, r = eDist x y} = ∅ := by
        ext r
        simp only [Set.mem_ofPred_eq, Set.mem_empty_iff_false, iff_false]
        rintro ⟨y, hy, -⟩
        exact hS ⟨y, hy⟩
      rw [distTo, this, Real.sInf_empty]
    rw [e, e]
    linarith [eDist_nonneg x y]

/-- The point at fraction `t` of the way from `x` to `y`. -/
def between (x y : Fin n → ℝ) (t : ℝ) : Fin n → ℝ := fun a => x a + t * (y a - x a)

theorem eDist_between_left (x y : Fin n → ℝ) (t : ℝ) : eDist x (between x y t) = |t| * eDist x y := by
  have := eDist_along x (fun a => y a - x a) t
  have e : eDist (fun a => y a - x a) (fun _ => 0) = eDist x y := by
    rw [eDist_comm x y]
    simp [eDist]
  rw [e] at this
  exact this

theorem eDist_between_right (x y : Fin n → ℝ) (t : ℝ) : eDist (between x y t) y = |1 - t| * eDist x y := by
  have e : between x y t = between y x (1 - t) := by
    funext a
    simp only [between]
    ring
  rw [e, eDist_comm, eDist_between_left, eDist_comm y x]

/-- A segment from a point of the solid to one outside has at least the length of the two distances together. -/
theorem distTo_cross {S : Set (Fin n → ℝ)} {x y : Fin n → ℝ} (hx : x ∈ S) (hy : y ∉ S) :
    distTo S y + distTo Sᶜ x ≤ eDist x y := by
  set T := {t : ℝ | 0 ≤ t ∧ t ≤ 1 ∧ between x y t ∈ S} with hT
  have h0 : (0 : ℝ) ∈ T := ⟨le_rfl, zero_le_one, by
    have : between x y 0 = x := by funext a; simp [between]
    rwa [this]⟩
  have hbdd : BddAbove T := ⟨1, fun t ht => ht.2.1⟩
  set τ := sSup T with hτ
  have hτ0 : 0 ≤ τ := le_csSup hbdd h0
  have hτ1 : τ ≤ 1 := csSup_le ⟨0, h0⟩ fun t ht => ht.2.1
  have hD := eDist_nonneg x y
  refine le_of_forall_pos_le_add fun ε hε => ?_
  set δ := ε / (2 * (eDist x y + 1)) with hδ
  have hδ0 : 0 < δ := by positivity
  obtain ⟨t, ht, htτ⟩ := exists_lt_of_lt_csSup ⟨0, h0⟩ (sub_lt_self τ hδ0)
  have h1 : distTo S y ≤ (1 - t) * eDist x y := by
    refine (distTo_le ht.2.2 y).trans (le_of_eq ?_)
    rw [eDist_comm, eDist_between_right, abs_of_nonneg (by linarith [ht.2.1])]
  have h2 : distTo Sᶜ x ≤ (τ + δ) * eDist x y := by
    by_cases hc : τ + δ ≤ 1
    · have hout : between x y (τ + δ) ∉ S := fun hm => by
        have : τ + δ ≤ τ := le_csSup hbdd ⟨by linarith, hc, hm⟩
        linarith
      refine (distTo_le (S := Sᶜ) hout x).trans (le_of_eq ?_)
      rw [eDist_between_left, abs_of_nonneg (by linarith)]
    · refine (distTo_le (S := Sᶜ) hy x).trans ?_
      nlinarith
  have h3 : δ * (2 * (eDist x y + 1)) = ε := by rw [hδ]; field_simp
  nlinarith

theorem signedDist_lip (S : Set (Fin n → ℝ)) (x y : Fin n → ℝ) : |signedDist S x - signedDist S y| ≤ eDist x y := by
  have key : ∀ (S : Set (Fin n → ℝ)) x y, x ∈ S → |signedDist S x - signedDist S y| ≤ eDist x y := by
    intro S x y hx
    unfold signedDist
    rw [distTo_self hx]
    by_cases hy : y ∈ S
    · rw [distTo_self hy, abs_le]
      have h1 := distTo_lip (S := Sᶜ) x y
      have h2 := distTo_lip (S := Sᶜ) y x
      rw [eDist_comm y x] at h2
      constructor <;> linarith
    · have h3 := distTo_cross hx hy
      rw [distTo_self (S := Sᶜ) hy, abs_le]
      have := distTo_nonneg S y
      have := distTo_nonneg Sᶜ x
      constructor <;> linarith
  by_cases hx : x ∈ S
  · exact key S x y hx
  · have h := key Sᶜ x y hx
    unfold signedDist at h ⊢
    rw [compl_compl] at h
    rw [show distTo S x - distTo Sᶜ x - (distTo S y - distTo Sᶜ y) =
      -(distTo Sᶜ x - distTo S x - (distTo Sᶜ y - distTo S y)) by ring, abs_neg]
    exact h

theorem signedDist_compl (S : Set (Fin n → ℝ)) (x : Fin n → ℝ) : signedDist Sᶜ x = -signedDist S x := by
  unfold signedDist
  rw [compl_compl]
  ring

/-! ### A nearest surface point exists -/

theorem eDist_dist (x y : Fin n → ℝ) :
    eDist x y = dist (WithLp.toLp 2 x : EuclideanSpace ℝ (Fin n)) (WithLp.toLp 2 y) := by
  rw [eDist_norm, dist_eq_norm]

/-- Outside of the solid there is a nearest point of its surface. -/
theorem exists_nearest_out {S : Set (Fin n → ℝ)} (hS : S.Nonempty) {x : Fin n → ℝ} (hx : 0 < signedDist S x) :
    ∃ y, signedDist S y = 0 ∧ eDist x y = signedDist S x := by
  have hxS : x ∉ S := fun h => by
    rw [signedDist, distTo_self h] at hx
    linarith [distTo_nonneg Sᶜ x]
  have hd : signedDist S x = distTo S x := by rw [signedDist, distTo_self (S := Sᶜ) hxS, sub_zero]
  -- nearest point of the closure
  set T : Set (EuclideanSpace ℝ (Fin n)) := closure ((fun y => WithLp.toLp 2 y) '' S) with hT
  have hTc : IsClosed T := isClosed_closure
  have hTn : T.Nonempty := by
    obtain ⟨y, hy⟩ := hS
    exact ⟨_, subset_closure ⟨y, hy, rfl⟩⟩
  obtain ⟨z, hzT, hz⟩ := hTc.exists_infDist_eq_dist hTn (WithLp.toLp 2 x)
  have hinf : ∀ ε > 0, ∃ y ∈ S, eDist (WithLp.ofLp z) y < ε := by
    intro ε hε
    obtain ⟨w, ⟨y, hy, rfl⟩, hw⟩ := Metric.mem_closure_iff.mp hzT ε hε
    exact ⟨y, hy, by rw [eDist_dist]; exact hw⟩
  have hle : signedDist S (WithLp.ofLp z) ≤ 0 := by
    refine le_of_forall_pos_le_add fun ε hε => ?_
    obtain ⟨y, hy, h⟩ := hinf ε hε
    have h1 := (abs_le.mp (signedDist_lip S (WithLp.ofLp z) y)).2
    have h2 : signedDist S y ≤ 0 := by
      rw [signedDist, distTo_self hy]
      linarith [distTo_nonneg Sᶜ y]
    linarith
  have hxz : eDist x (WithLp.ofLp z) = distTo S x := by
    have e1 : eDist x (WithLp.ofLp z) = dist (WithLp.toLp 2 x) z := by rw [eDist_dist]
    apply le_antisymm
    · rw [e1, ← hz]
      obtain ⟨y0, hy0⟩ := hS
      refine le_csInf ⟨_, y0, hy0, rfl⟩ ?_
      rintro _ ⟨y, hy, rfl⟩
      rw [eDist_dist]
      exact Metric.infDist_le_dist_of_mem (subset_closure ⟨y, hy, rfl⟩)
    · refine le_of_forall_pos_le_add fun ε hε => ?_
      obtain ⟨y, hy, h⟩ := hinf ε hε
      have h1 := distTo_le hy x
      have h2 := eDist_triangle x (WithLp.ofLp z) y
      linarith
  refine ⟨WithLp.ofLp z, le_antisymm hle ?_, hxz.trans hd.symm⟩
  have h1 := (abs_le.mp (signedDist_lip S x (WithLp.ofLp z))).2
  rw [hxz, hd] at h1
  linarith

/-- Every point off the surface has a nearest point on it. -/
theorem exists_nearest {S : Set (Fin n → ℝ)} (hS : S.Nonempty) (hS' : Sᶜ.Nonempty) {x : Fin n → ℝ} (hx : signedDist S x ≠ 0) :
    ∃ y, signedDist S y = 0 ∧ eDist x y = |signedDist S x| := by
  rcases lt_or_gt_of_ne hx with h | h
  · obtain ⟨y, h1, h2⟩ := exists_nearest_out hS' (x := x) (by rw [signedDist_compl]; linarith)
    rw [signedDist_compl] at h1 h2
    exact ⟨y, by linarith, by rw [h2, abs_of_neg h]⟩
  · obtain ⟨y, h1, h2⟩ := exists_nearest_out hS h
    exact ⟨y, h1, by rw [h2, abs_of_pos h]⟩

/-! ### The gradient of a signed distance -/

/-- `g` is the gradient of `f` at `x`. -/
def Spec.IsGradient (g : Fin n → ℝ) (f : (Fin n → ℝ) → ℝ) (x : Fin n → ℝ) : Prop :=
  HasFDerivAt f (∑ a, g a • ContinuousLinearMap.proj (R := ℝ) (φ := fun _ => ℝ) a) x

theorem isGradient_line {g : Fin n → ℝ} {f : (Fin n → ℝ) → ℝ} {x : Fin n → ℝ} (h : IsGradient g f x) (v : Fin n → ℝ) :
    HasDerivAt (fun t : ℝ => f fun a => x a + t * v a) (∑ a, g a * v a) 0 := by
  have hl : HasDerivAt (fun t : ℝ => (fun a => x a + t * v a : Fin n → ℝ)) v 0 := by
    rw [hasDerivAt_pi]
    intro a
    simpa using ((hasDerivAt_id (0 : ℝ)).mul_const (v a)).const_add (x a)
  have hx : (fun a => x a + (0 : ℝ) * v a) = x := by funext a; ring
  have h' : HasFDerivAt f (∑ a, g a • ContinuousLinearMap.proj (R := ℝ) (φ := fun _ => ℝ) a) (fun a => x a + (0 : ℝ) * v a) := by
    rw [hx]; exact h
  have := h'.comp_hasDerivAt (0 : ℝ) hl
  have e : (∑ a, g a • ContinuousLinearMap.proj (R := ℝ) (φ := fun _ => ℝ) a) v = ∑ a, g a * v a := by simp
  rw [e] at this
  exact this

/-- The gradient of a signed distance has length one and points from the nearest surface point to the point outside, and
from the point to it inside. -/
theorem signedDist_gradient {S : Set (Fin n → ℝ)} {x g y : Fin n → ℝ} (hg : IsGradient g (signedDist S) x)
    (hy0 : signedDist S y = 0) (hy : eDist x y = |signedDist S x|) (a : Fin n) :
    signedDist S x * g a = x a - y a := by
  set d := signedDist S x with hd
  -- along the segment the distance decreases linearly
  have hseg : ∀ t, 0 ≤ t → t ≤ 1 → signedDist S (between x y t) = (1 - t) * d := by
    intro t h0 h1
    have e1 := signedDist_lip S x (between x y t)
    have e2 := signedDist_lip S (between x y t) y
    rw [eDist_between_left, abs_of_nonneg h0, hy] at e1
    rw [eDist_between_right, abs_of_nonneg (show (0 : ℝ) ≤ 1 - t by linarith), hy, hy0, sub_zero] at e2
    rcases le_or_gt 0 d with hp | hp
    · rw [abs_of_nonneg hp] at e1 e2
      have := abs_le.mp e1
      have := abs_le.mp e2
      nlinarith
    · rw [abs_of_neg hp] at e1 e2
      have := abs_le.mp e1
      have := abs_le.mp e2
      nlinarith
  have hdir : ∑ a, g a * (y a - x a) = -d := by
    have h1 := (isGradient_line hg fun a => y a - x a).hasDerivWithinAt (s := Set.Ici 0)
    have h2 : HasDerivWithinAt (fun t : ℝ => signedDist S fun a => x a + t * (y a - x a)) (-d) (Set.Ici 0) 0 := by
      have h3 : HasDerivWithinAt (fun t : ℝ => (1 - t) * d) (-d) (Set.Ici 0) 0 := by
        have := (((hasDerivAt_id (0 : ℝ)).const_sub 1).mul_const d).hasDerivWithinAt (s := Set.Ici 0)
        simpa using this
      refine h3.congr_of_eventuallyEq ?_ ?_
      · have : Set.Icc (0 : ℝ) 1 ∈ nhdsWithin (0 : ℝ) (Set.Ici 0) := Icc_mem_nhdsGE one_pos
        filter_upwards [this] with t ht
        exact hseg t ht.1 ht.2
      · exact hseg 0 le_rfl zero_le_one
    exact (uniqueDiffOn_Ici (0 : ℝ)).uniqueDiffWithinAt (Set.self_mem_Ici) |>.eq_deriv _ h1 h2
  have hnorm : ∑ a, g a ^ 2 ≤ 1 := by
    have h1 := isGradient_line hg g
    have hC : ‖∑ a, g a * g a‖ ≤ eDist g fun _ => 0 := by
      refine h1.le_of_lip' (eDist_nonneg _ _) (Filter.Eventually.of_forall fun t => ?_)
      have h2 := signedDist_lip S (fun a => x a + t * g a) (fun a => x a + 0 * g a)
      have e : eDist (fun a => x a + t * g a) (fun a => x a + 0 * g a) = |t| * eDist g fun _ => 0 := by
        rw [← eDist_along x g t, eDist_comm]
        simp
      rw [e] at h2
      rw [Real.norm_eq_abs, Real.norm_eq_abs, sub_zero, mul_comm]
      exact h2
    have hs : ∑ a, g a * g a = ∑ a, g a ^ 2 := Finset.sum_congr rfl fun a _ => (sq (g a)).symm
    have h0 : 0 ≤ ∑ a, g a ^ 2 := Finset.sum_nonneg fun a _ => sq_nonneg (g a)
    rw [hs, Real.norm_eq_abs, abs_of_nonneg h0, eDist] at hC
    simp only [sub_zero] at hC
    have := Real.sq_sqrt h0
    have := Real.sqrt_nonneg (∑ a, g a ^ 2)
    nlinarith
  have hlen : ∑ a, (x a - y a) ^ 2 = d ^ 2 := by
    have := congrArg (· ^ 2) hy
    simp only [eDist, sq_abs] at this
    rwa [Real.sq_sqrt (Finset.sum_nonneg fun a _ => sq_nonneg _)] at this
  have hz : ∑ a, (d * g a - (x a - y a)) ^ 2 ≤ 0 := by
    have e : ∀ a, (d * g a - (x a - y a)) ^ 2 = d ^ 2 * g a ^ 2 + (x a - y a) ^ 2 + 2 * d * (g a * (y a - x a)) := fun a => by ring
    simp only [e, Finset.sum_add_distrib, ← Finset.mul_sum]
    rw [hlen, hdir]
    nlinarith [sq_nonneg d]
  have h0 := (Finset.sum_eq_zero_iff_of_nonneg fun a _ => sq_nonneg (d * g a - (x a - y a))).mp
    (le_antisymm hz (Finset.sum_nonneg fun a _ => sq_nonneg _)) a (Finset.mem_univ a)
  have := pow_eq_zero_iff (two_ne_zero) |>.mp h0
  linarith

theorem signedDist_gradient_unit {S : Set (Fin n → ℝ)} (hS : S.Nonempty) (hS' : Sᶜ.Nonempty) {x g : Fin n → ℝ}
    (hg : IsGradient g (signedDist S) x) (hx : signedDist S x ≠ 0) : ∑ a, g a ^ 2 = 1 := by
  obtain ⟨y, hy0, hy⟩ := exists_nearest hS hS' hx
  have h := signedDist_gradient hg hy0 hy
  have hlen : ∑ a, (x a - y a) ^ 2 = signedDist S x ^ 2 := by
    have := congrArg (· ^ 2) hy
    simp only [eDist, sq_abs] at this
    rwa [Real.sq_sqrt (Finset.sum_nonneg fun a _ => sq_nonneg _)] at this
  simp only [← h, mul_pow, ← Finset.mul_sum] at hlen
  exact mul_left_cancel₀ (pow_ne_zero 2 hx) (by rw [hlen, mul_one])

/-! ### C83: the normals of obstacles -/

theorem eDist_le_norm (x y : Fin n → ℝ) : eDist x y ≤ (n : ℝ) * ‖x - y‖ := by
  have h1 : eDist x y ≤ ∑ a, |x a - y a| := by
    rw [eDist, Real.sqrt_le_left (Finset.sum_nonneg fun a _ => abs_nonneg _)]
    have : ∀ a, (x a - y a) ^ 2 = |x a - y a| ^ 2 := fun a => (sq_abs _).symm
    simp only [this]
    exact Finset.sum_sq_le_sq_sum_of_nonneg fun a _ => abs_nonneg _
  refine h1.trans ?_
  have h2 : ∀ a ∈ Finset.univ, |x a - y a| ≤ ‖x - y‖ := fun a _ => by
    have := norm_le_pi_norm (x - y) a
    rwa [Real.norm_eq_abs] at this
  have := Finset.sum_le_card_nsmul Finset.univ (fun a => |x a - y a|) ‖x - y‖ h2
  simpa using this

/-- Where an increasing function of the signed distance has a gradient, so has the signed distance. -/
theorem gradient_of_monotone {S : Set (Fin n → ℝ)} {dist : (Fin n → ℝ) → ℝ} {x G : Fin n → ℝ} (hG : IsGradient G dist x)
    {φ : ℝ → ℝ} {k : ℝ} (hk : 0 < k) (hφ : HasDerivAt φ k (signedDist S x))
    (hdist : ∀ᶠ y in nhds x, dist y = φ (signedDist S y)) : IsGradient (fun a => k⁻¹ * G a) (signedDist S) x := by
  have hO : (fun y => signedDist S y - signedDist S x) =O[nhds x] fun y => y - x := by
    refine Asymptotics.IsBigO.of_bound (n : ℝ) (Filter.Eventually.of_forall fun y => ?_)
    rw [Real.norm_eq_abs]
    exact (signedDist_lip S y x).trans (eDist_le_norm y x)
  have hcont : Filter.Tendsto (signedDist S) (nhds x) (nhds (signedDist S x)) := by
    have h0 : Filter.Tendsto (fun y => signedDist S y - signedDist S x) (nhds x) (nhds 0) := by
      refine hO.trans_tendsto ?_
      have : Filter.Tendsto (fun y : Fin n → ℝ => y - x) (nhds x) (nhds (x - x)) := (continuous_id.sub continuous_const).tendsto x
      simpa using this
    simpa using h0.add_const (signedDist S x)
  have h1 := (hasDerivAt_iff_isLittleO.mp hφ).comp_tendsto hcont
  have h2 : (fun y => φ (signedDist S y) - φ (signedDist S x) - (signedDist S y - signedDist S x) • k) =o[nhds x] fun y => y - x :=
    (h1.trans_isBigO hO)
  have h3 := hasFDerivAt_iff_isLittleO.mp hG
  unfold IsGradient
  rw [hasFDerivAt_iff_isLittleO]
  have h4 := ((h3.sub h2).const_mul_left k⁻¹)
  refine h4.congr' ?_ Filter.EventuallyEq.rfl
  have hx0 : dist x = φ (signedDist S x) := hdist.self_of_nhds
  filter_upwards [hdist] with y hy
  simp only [hy, hx0, smul_eq_mul]
  have e : ∀ (g : Fin n → ℝ) (v : Fin n → ℝ),
      (∑ a, g a • ContinuousLinearMap.proj (R := ℝ) (φ := fun _ => ℝ) a) v = ∑ a, g a * v a := fun g v => by simp
  rw [e, e]
  simp only [mul_assoc]
  rw [← Finset.mul_sum]
  field_simp
  ring

/-- **C83**: if near `x` an obstacle reports an increasing function `φ` of the signed distance to a solid `S`, and autograd
returns the gradient, then `get_normal` returns the direction from the nearest surface point (to it, inside), up to the factor
`k / (k + 1e-12)` of its normalisation with `k` the slope of `φ`. -/
theorem normal_nearest {S : Set (Fin n → ℝ)} (grad : ((Fin n → ℝ) → ℝ) → (Fin n → ℝ) → Fin n → ℝ)
    {dist : (Fin n → ℝ) → ℝ} {x : Fin n → ℝ} (hgrad : IsGradient (grad dist x) dist x)
    {φ : ℝ → ℝ} {k : ℝ} (hk : 0 < k) (hφ : HasDerivAt φ k (signedDist S x))
    (hdist : ∀ᶠ y in nhds x, dist y = φ (signedDist S y))
    (hx : signedDist S x ≠ 0) {y : Fin n → ℝ} (hy0 : signedDist S y = 0) (hy : eDist x y = |signedDist S x|) (a : Fin n) :
    autoNormal realFns.sqrt grad dist x a = (x a - y a) / signedDist S x * (k / (k + 1 / 10 ^ 12)) := by
  have hg := gradient_of_monotone hgrad hk hφ hdist
  set g := fun a => k⁻¹ * grad dist x a with hgdef
  have hG : ∀ a, grad dist x a = k * g a := by
    intro a
    rw [hgdef]
    field_simp
  have h := signedDist_gradient hg hy0 hy
  have hu : ∑ a, g a ^ 2 = 1 := by
    have hlen : ∑ a, (x a - y a) ^ 2 = signedDist S x ^ 2 := by
      have := congrArg (· ^ 2) hy
      simp only [eDist, sq_abs] at this
      rwa [Real.sq_sqrt (Finset.sum_nonneg fun a _ => sq_nonneg _)] at this
    simp only [← h, mul_pow, ← Finset.mul_sum] at hlen
    exact mul_left_cancel₀ (pow_ne_zero 2 hx) (by rw [hlen, mul_one])
  have hn : realFns.sqrt (∑ b, grad dist x b ^ 2) = k := by
    simp only [hG, mul_pow, ← Finset.mul_sum, hu, mul_one]
    exact Real.sqrt_sq hk.le
  unfold autoNormal
  rw [hn, hG, ← h a]
  field_simp

/-- Such a nearest surface point exists. -/
theorem nearest_exists {S : Set (Fin n → ℝ)} (hS : S.Nonempty) (hS' : Sᶜ.Nonempty) {x : Fin n → ℝ} (hx : signedDist S x ≠ 0) :
    ∃ y, signedDist S y = 0 ∧ eDist x y = |signedDist S x| := exists_nearest hS hS' hx

/-! ### Spheres, planes, boxes -/

theorem isGradient_unique {g g' : Fin n → ℝ} {f : (Fin n → ℝ) → ℝ} {x : Fin n → ℝ} (h : IsGradient g f x)
    (h' : IsGradient g' f x) : g = g' := by
  funext a
  have h5 := congrArg (fun L : (Fin n → ℝ) →L[ℝ] ℝ => L (Pi.single a 1)) (HasFDerivAt.unique h h')
  simpa [Pi.single_apply] using h5

theorem eDist_gradient {x c : Fin n → ℝ} (h : eDist x c ≠ 0) (r : ℝ) :
    IsGradient (fun a => (x a - c a) / eDist x c) (fun y => eDist y c - r) x := by
  have h1 : HasFDerivAt (fun y : Fin n → ℝ => ∑ a, (y a - c a) ^ 2)
      (∑ a, (2 * (x a - c a)) • ContinuousLinearMap.proj (R := ℝ) (φ := fun _ => ℝ) a) x := by
    refine HasFDerivAt.fun_sum fun a _ => ?_
    have h2 : HasFDerivAt (fun y : Fin n → ℝ => y a - c a) (ContinuousLinearMap.proj (R := ℝ) (φ := fun _ => ℝ) a) x :=
      ((ContinuousLinearMap.proj (R := ℝ) (φ := fun _ => ℝ) a).hasFDerivAt).sub_const _
    have := h2.pow 2
    simpa using this
  have hs : ∑ a, (x a - c a) ^ 2 ≠ 0 := fun h0 => h (by rw [eDist, h0, Real.sqrt_zero])
  have h3 := (h1.sqrt hs).sub_const r
  unfold IsGradient
  have e : (∑ a, ((x a - c a) / eDist x c) • ContinuousLinearMap.proj (R := ℝ) (φ := fun _ => ℝ) a) =
      (1 / (2 * Real.sqrt (∑ a, (x a - c a) ^ 2))) •
        ∑ a, (2 * (x a - c a)) • ContinuousLinearMap.proj (R := ℝ) (φ := fun _ => ℝ) a := by
    rw [Finset.smul_sum]
    refine Finset.sum_congr rfl fun a _ => ?_
    rw [smul_smul]
    congr 1
    change _ / eDist x c = 1 / (2 * eDist x c) * _
    field_simp
  rw [e]
  exact h3

/-- **C83** (sphere): everywhere but at the centre the normal of `SphereSDF` points away from the centre, with length
`1 / (1 + 1e-12)`. -/
theorem sphere_normal (grad : ((Fin n → ℝ) → ℝ) → (Fin n → ℝ) → Fin n → ℝ) (r : ℝ) (s : SdfState ℝ n) (x : Fin n → ℝ)
    (hx : eDist x s.com ≠ 0) (hgrad : IsGradient (grad ((sphereSdf realFns grad r).dist s) x) ((sphereSdf realFns grad r).dist s) x)
    (a : Fin n) : (sphereSdf realFns grad r).normal s x a = (x a - s.com a) / eDist x s.com / (1 + 1 / 10 ^ 12) := by
  have hd : (sphereSdf realFns grad r).dist s = fun y => eDist y s.com - r := by
    funext y
    simp only [sphereSdf, sphereDist]
    rw [norm2_eDist]
    have := eDist_shift y s.com s.com
    simp only [sub_self] at this
    rw [this]
  have hg : grad ((sphereSdf realFns grad r).dist s) x = fun a => (x a - s.com a) / eDist x s.com := by
    refine isGradient_unique hgrad ?_
    rw [hd]
    exact eDist_gradient hx r
  have hu : ∑ b, ((x b - s.com b) / eDist x s.com) ^ 2 = 1 := by
    simp only [div_pow, ← Finset.sum_div]
    rw [div_eq_one_iff_eq (pow_ne_zero 2 hx), eDist, Real.sq_sqrt (Finset.sum_nonneg fun a _ => sq_nonneg _)]
  change autoNormal realFns.sqrt grad ((sphereSdf realFns grad r).dist s) x a = _
  unfold autoNormal
  simp only [hg, hu]
  simp [realFns]

/-- **C83** (plane): off the plane the normal of `PlaneSDF` points from the nearest point of the plane (to it, behind). -/
theorem plane_normal (grad : ((Fin n → ℝ) → ℝ) → (Fin n → ℝ) → Fin n → ℝ) (friction : (Fin n → ℝ) → ℝ) {m : Fin n → ℝ}
    (hm : norm2 realFns m ≠ 0) {s : SdfState ℝ n} (hs : ProperPose n s) {x y : Fin n → ℝ}
    (hgrad : let f := (baseSdf realFns grad (planeDist (planeNormal realFns m)) friction).dist s; IsGradient (grad f x) f x)
    (hx : signedDist (posed s (halfSpace m)) x ≠ 0) (hy0 : signedDist (posed s (halfSpace m)) y = 0)
    (hy : eDist x y = |signedDist (posed s (halfSpace m)) x|) :
    ∃ κ, 1 - κ ≤ 1 / 10 ^ 12 * (1 + 1 / norm2 realFns m) ∧ κ ≤ 1 ∧ ∀ a,
      (baseSdf realFns grad (planeDist (planeNormal realFns m)) friction).normal s x a =
        κ * ((x a - y a) / signedDist (posed s (halfSpace m)) x) := by
  have hm0 : 0 < norm2 realFns m := lt_of_le_of_ne (by rw [norm2_eDist]; exact eDist_nonneg _ _) (Ne.symm hm)
  set k := norm2 realFns m / (norm2 realFns m + 1 / 10 ^ 12) with hkdef
  have hk : 0 < k := by positivity
  have hφ : HasDerivAt (fun t => t * k) k (signedDist (posed s (halfSpace m)) x) := by
    simpa using (hasDerivAt_id (signedDist (posed s (halfSpace m)) x)).mul_const k
  have hd : ∀ y, (baseSdf realFns grad (planeDist (planeNormal realFns m)) friction).dist s y =
      signedDist (posed s (halfSpace m)) y * k := fun y => plane_signed_distance grad friction hm hs y
  refine ⟨k / (k + 1 / 10 ^ 12), ?_, ?_, fun a => ?_⟩
  · rw [hkdef]
    have e : 1 - norm2 realFns m / (norm2 realFns m + 1 / 10 ^ 12) / (norm2 realFns m / (norm2 realFns m + 1 / 10 ^ 12) + 1 / 10 ^ 12) =
        1 / 10 ^ 12 * ((norm2 realFns m + 1 / 10 ^ 12) / (norm2 realFns m + 1 / 10 ^ 12 * (norm2 realFns m + 1 / 10 ^ 12))) := by
      field_simp
      ring
    rw [e]
    refine mul_le_mul_of_nonneg_left ?_ (by positivity)
    rw [div_le_iff₀ (by positivity)]
    have : (1 + 1 / norm2 realFns m) * norm2 realFns m = norm2 realFns m + 1 := by field_simp
    have h2 : 0 ≤ (1 + 1 / norm2 realFns m) * (1 / 10 ^ 12 * (norm2 realFns m + 1 / 10 ^ 12)) := by positivity
    nlinarith
  · rw [div_le_one (by positivity)]
    linarith [show (0 : ℝ) < 1 / 10 ^ 12 by positivity]
  · have := normal_nearest grad hgrad hk hφ (Filter.Eventually.of_forall hd) hx hy0 hy a
    rw [mul_comm]
    exact this

/-- **C83** (box): off the surface of the box, wherever the reported distance has a gradient, the normal of `BoxSDF` points
from the nearest surface point (to it, inside). -/
theorem box_normal (grad : ((Fin (n + 1) → ℝ) → ℝ) → (Fin (n + 1) → ℝ) → Fin (n + 1) → ℝ)
    (friction : (Fin (n + 1) → ℝ) → ℝ) {size : Fin (n + 1) → ℝ} (h0 : ∀ a, 0 ≤ size a) {s : SdfState ℝ (n + 1)}
    (hs : ProperPose (n + 1) s) {x y : Fin (n + 1) → ℝ}
    (hgrad : let f := (baseSdf realFns grad (boxDist realFns (boxHalf size)) friction).dist s; IsGradient (grad f x) f x)
    (hx : signedDist (posed s (boxSolid fun a => size a / 2)) x ≠ 0)
    (hy0 : signedDist (posed s (boxSolid fun a => size a / 2)) y = 0)
    (hy : eDist x y = |signedDist (posed s (boxSolid fun a => size a / 2)) x|) :
    ∃ κ, 0 < κ ∧ κ ≤ 1 ∧ ∀ a, (baseSdf realFns grad (boxDist realFns (boxHalf size)) friction).normal s x a =
      κ * ((x a - y a) / signedDist (posed s (boxSolid fun a => size a / 2)) x) := by
  set S := posed s (boxSolid fun a => size a / 2) with hS
  have hform : ∀ z, signedDist S z = norm2 realFns (fun a => max (|toLocal realFns s z a| - size a / 2) 0) +
      min (maxv fun a => |toLocal realFns s z a| - size a / 2) 0 := fun z =>
    (signedDist_posed hs _ _).trans (signedDist_box (fun a => by have := h0 a; linarith) _)
  have hcode : ∀ z, (baseSdf realFns grad (boxDist realFns (boxHalf size)) friction).dist s z =
      safeNorm realFns (1 / 10 ^ 12) (fun a => max (|toLocal realFns s z a| - size a / 2) 0) +
      min (maxv fun a => |toLocal realFns s z a| - size a / 2) 0 := fun z => rfl
  have hcont : Filter.Tendsto (signedDist S) (nhds x) (nhds (signedDist S x)) := by
    rw [Metric.tendsto_nhds_nhds]
    intro ε hε
    refine ⟨ε / ((n + 1 : ℕ) + 1), by positivity, fun z hz => ?_⟩
    rw [Real.dist_eq]
    refine lt_of_le_of_lt ((signedDist_lip S z x).trans (eDist_le_norm z x)) ?_
    rw [dist_eq_norm, lt_div_iff₀ (by positivity)] at hz
    have := norm_nonneg (z - x)
    nlinarith
  set P := fun z => norm2 realFns (fun a => max (|toLocal realFns s z a| - size a / 2) 0) with hP
  set Q := fun z => min (maxv fun a => |toLocal realFns s z a| - size a / 2) 0 with hQ
  have hP0 : ∀ z, 0 ≤ P z := fun z => Real.sqrt_nonneg _
  have hQ0 : ∀ z, Q z ≤ 0 := fun z => min_le_right _ _
  have hPQ : ∀ z, Q z < 0 → P z = 0 := by
    intro z hz
    have hm : (maxv fun a => |toLocal realFns s z a| - size a / 2) < 0 := by
      rcases min_lt_iff.mp hz with h | h
      · exact h
      · exact absurd h (lt_irrefl _)
    have h1 : ∀ a, max (|toLocal realFns s z a| - size a / 2) 0 = 0 := fun a =>
      max_eq_right ((maxv_ge (fun a => |toLocal realFns s z a| - size a / 2) a).trans hm.le)
    simp only [hP, h1]
    simp [norm2, realFns]
  have hsafe : ∀ z, (baseSdf realFns grad (boxDist realFns (boxHalf size)) friction).dist s z =
      Real.sqrt (P z ^ 2 + 1 / 10 ^ 12) + Q z := by
    intro z
    rw [hcode]
    congr 1
    change Real.sqrt (_ + _) = _
    congr 2
    exact (Real.sq_sqrt (Finset.sum_nonneg fun a _ => sq_nonneg _)).symm
  have hκ : ∀ {φ : ℝ → ℝ} {k : ℝ}, 0 < k → HasDerivAt φ k (signedDist S x) →
      (∀ᶠ z in nhds x, (baseSdf realFns grad (boxDist realFns (boxHalf size)) friction).dist s z = φ (signedDist S z)) →
      ∃ κ, 0 < κ ∧ κ ≤ 1 ∧ ∀ a, (baseSdf realFns grad (boxDist realFns (boxHalf size)) friction).normal s x a =
        κ * ((x a - y a) / signedDist S x) := by
    intro φ k hk hφ hd
    refine ⟨k / (k + 1 / 10 ^ 12), by positivity, ?_, fun a => ?_⟩
    · rw [div_le_one (by positivity)]
      linarith [show (0 : ℝ) < 1 / 10 ^ 12 by positivity]
    · rw [mul_comm]
      exact normal_nearest grad hgrad hk hφ hd hx hy0 hy a
  rcases lt_or_gt_of_ne hx with hneg | hpos
  · refine hκ (φ := fun t => t + Real.sqrt (1 / 10 ^ 12)) one_pos ((hasDerivAt_id _).add_const _) ?_
    filter_upwards [hcont.eventually (gt_mem_nhds hneg)] with z hz
    have hq : Q z < 0 := by
      have := hform z
      have := hP0 z
      linarith
    rw [hsafe, hform, hPQ z hq]
    change _ = P z + Q z + _
    rw [hPQ z hq]
    simp [add_comm]
  · have hr : 0 < Real.sqrt (signedDist S x ^ 2 + 1 / 10 ^ 12) := Real.sqrt_pos.mpr (by positivity)
    have hder : HasDerivAt (fun t : ℝ => Real.sqrt (t ^ 2 + 1 / 10 ^ 12))
        (signedDist S x / Real.sqrt (signedDist S x ^ 2 + 1 / 10 ^ 12)) (signedDist S x) := by
      have h1 := (((hasDerivAt_id (signedDist S x)).pow 2).add_const ((1 : ℝ) / 10 ^ 12)).sqrt
        (show signedDist S x ^ 2 + 1 / 10 ^ 12 ≠ 0 by positivity)
      refine h1.congr_deriv ?_
      change (((2 : ℕ) : ℝ) * signedDist S x ^ (2 - 1) * 1) / (2 * Real.sqrt (signedDist S x ^ 2 + 1 / 10 ^ 12)) = _
      push_cast
      field_simp
    refine hκ (div_pos hpos hr) hder ?_
    filter_upwards [hcont.eventually (lt_mem_nhds hpos)] with z hz
    have hq : Q z = 0 := by
      rcases (hQ0 z).lt_or_eq with h | h
      · have := hPQ z h
        have := hform z
        simp only [hP] at *
        linarith
      · exact h
    rw [hsafe, hform]
    change _ = Real.sqrt ((P z + Q z) ^ 2 + _)
    rw [hq, add_zero, add_zero]

/-! ### The hypotheses can be met -/

/-- Reverse-mode differentiation idealised: the derivative in each coordinate direction. -/
noncomputable def Spec.trueGrad (f : (Fin n → ℝ) → ℝ) (x : Fin n → ℝ) : Fin n → ℝ := fun a => fderiv ℝ f x (Pi.single a 1)

theorem trueGrad_isGradient {f : (Fin n → ℝ) → ℝ} {x : Fin n → ℝ} (h : DifferentiableAt ℝ f x) : IsGradient (trueGrad f x) f x := by
  have e : (∑ a, trueGrad f x a • ContinuousLinearMap.proj (R := ℝ) (φ := fun _ => ℝ) a) = fderiv ℝ f x := by
    ext v
    have hv : v = ∑ a, v a • (Pi.single a (1 : ℝ) : Fin n → ℝ) := by
      funext b
      simp [Finset.sum_apply, Pi.single_apply]
    conv_rhs => rw [hv]
    simp [trueGrad, mul_comm]
  unfold IsGradient
  rw [e]
  exact h.hasFDerivAt

theorem sphere_differentiable (grad : ((Fin n → ℝ) → ℝ) → (Fin n → ℝ) → Fin n → ℝ) (r : ℝ) (s : SdfState ℝ n) {x : Fin n → ℝ}
    (hx : eDist x s.com ≠ 0) : DifferentiableAt ℝ ((sphereSdf realFns grad r).dist s) x := by
  have hd : (sphereSdf realFns grad r).dist s = fun y => eDist y s.com - r := by
    funext y
    simp only [sphereSdf, sphereDist]
    rw [norm2_eDist]
    have := eDist_shift y s.com s.com
    simp only [sub_self] at this
    rw [this]
  rw [hd]
  exact HasFDerivAt.differentiableAt (eDist_gradient hx r)

/-- A unit sphere at the origin seen from `(3, 4)`: the normal is `(0.6, 0.8)` but for the factor. -/
example (s : SdfState ℝ 2) (hc : s.com = fun _ => 0) : (sphereSdf realFns trueGrad 1).normal s ![3, 4] =
    ![3 / 5 / (1 + 1 / 10 ^ 12), 4 / 5 / (1 + 1 / 10 ^ 12)] := by
  have hd : eDist (![3, 4] : Fin 2 → ℝ) s.com = 5 := by
    rw [hc, eDist, Fin.sum_univ_two, show ((![3, 4] : Fin 2 → ℝ) 0 - 0) ^ 2 + ((![3, 4] : Fin 2 → ℝ) 1 - 0) ^ 2 = 5 ^ 2 by
      norm_num]
    exact Real.sqrt_sq (by norm_num)
  have h5 : eDist (![3, 4] : Fin 2 → ℝ) s.com ≠ 0 := by rw [hd]; norm_num
  funext a
  rw [sphere_normal trueGrad 1 s _ h5 (trueGrad_isGradient (sphere_differentiable _ 1 s h5)) a, hd, hc]
  fin_cases a <;> simp

theorem toLocal_origin (z : Fin 2 → ℝ) : toLocal realFns (SdfState.create (fun _ => 0)) z = z := by
  funext a
  fin_cases a <;> simp [toLocal, rotInv, rot2Inv, SdfState.create, realFns]

theorem square_signedDist (z : Fin 2 → ℝ) : signedDist (posed (SdfState.create (fun _ => 0)) (boxSolid fun _ => 2 / 2)) z =
    Real.sqrt (max (|z 0| - 1) 0 ^ 2 + max (|z 1| - 1) 0 ^ 2) + min (max (|z 0| - 1) (|z 1| - 1)) 0 := by
  rw [signedDist_posed (by simp [ProperPose]), signedDist_box (fun _ => by norm_num), toLocal_origin]
  have hm : ∀ f : Fin 2 → ℝ, maxv (m := 1) f = max (f 0) (f 1) := by
    intro f
    have := maxv_two (f 0) (f 1)
    rwa [show (fun a => (![f 0, f 1] : Fin 2 → ℝ) a) = f by funext a; fin_cases a <;> rfl] at this
  rw [hm]
  simp [norm2, Fin.sum_univ_two, realFns]

/-- A square of side 2 seen from `(3, 0)`: the nearest surface point is `(1, 0)` and the normal points along the first axis. -/
example : ∃ κ, 0 < κ ∧ κ ≤ 1 ∧ ∀ a, (baseSdf realFns trueGrad (boxDist realFns (boxHalf fun _ : Fin 2 => 2)) fun _ => 0).normal
    (SdfState.create fun _ => 0) ![3, 0] a = κ * (![1, 0] : Fin 2 → ℝ) a := by
  have h4 : Real.sqrt 4 = 2 := by rw [show (4 : ℝ) = 2 ^ 2 by norm_num]; exact Real.sqrt_sq (by norm_num)
  have hx : signedDist (posed (SdfState.create (fun _ => 0)) (boxSolid fun _ => 2 / 2)) (![3, 0] : Fin 2 → ℝ) = 2 := by
    rw [square_signedDist]
    norm_num
    exact h4
  have hy : signedDist (posed (SdfState.create (fun _ => 0)) (boxSolid fun _ => 2 / 2)) (![1, 0] : Fin 2 → ℝ) = 0 := by
    rw [square_signedDist]
    norm_num
  have hdiff : DifferentiableAt ℝ ((baseSdf realFns trueGrad (boxDist realFns (boxHalf fun _ : Fin 2 => 2)) fun _ => 0).dist
      (SdfState.create fun _ => 0)) ![3, 0] := by
    have he : (baseSdf realFns trueGrad (boxDist realFns (boxHalf fun _ : Fin 2 => 2)) fun _ => 0).dist (SdfState.create fun _ => 0)
        =ᶠ[nhds ![3, 0]] fun z => Real.sqrt ((z 0 - 1) ^ 2 + 1 / 10 ^ 12) := by
      have h0 : ∀ᶠ z : Fin 2 → ℝ in nhds ![3, 0], 1 < z 0 :=
        (continuous_apply 0).continuousAt.eventually (lt_mem_nhds (by norm_num))
      have h1 : ∀ᶠ z : Fin 2 → ℝ in nhds ![3, 0], z 1 < 1 :=
        (continuous_apply 1).continuousAt.eventually (gt_mem_nhds (by norm_num))
      have h2 : ∀ᶠ z : Fin 2 → ℝ in nhds ![3, 0], -1 < z 1 :=
        (continuous_apply 1).continuousAt.eventually (lt_mem_nhds (by norm_num))
      filter_upwards [h0, h1, h2] with z hz0 hz1 hz2
      change boxDist realFns (boxHalf fun _ => 2) (toLocal realFns (SdfState.create fun _ => 0) z) = _
      rw [toLocal_origin]
      have hm := maxv_ge (fun a => |z a| - boxHalf (fun _ : Fin 2 => (2 : ℝ)) a) 0
      have ha : |z 0| = z 0 := abs_of_pos (by linarith)
      have hb : |z 1| ≤ 1 := abs_le.mpr ⟨hz2.le, hz1.le⟩
      simp only [boxHalf] at hm
      simp only [boxDist, boxHalf, safeNorm]
      rw [min_eq_right (by rw [ha] at hm; linarith), show (∑ a : Fin (0 + 1 + 1), max (|z a| - 2 / 2) 0 ^ 2 : ℝ) =
        max (|z 0| - 2 / 2) 0 ^ 2 + max (|z 1| - 2 / 2) 0 ^ 2 from Fin.sum_univ_two _, ha, max_eq_left (by linarith), max_eq_right (by linarith)]
      norm_num [realFns]
    refine DifferentiableAt.congr_of_eventuallyEq ?_ he
    have h3 : DifferentiableAt ℝ (fun z : Fin 2 → ℝ => (z 0 - 1) ^ 2 + 1 / 10 ^ 12) ![3, 0] := by fun_prop
    exact h3.sqrt (by norm_num)
  obtain ⟨κ, h1, h2, h3⟩ := box_normal (n := 1) trueGrad (fun _ => 0) (size := fun _ => 2) (fun _ => by norm_num)
    (s := SdfState.create fun _ => 0) (by simp [ProperPose]) (x := ![3, 0]) (y := ![1, 0]) (trueGrad_isGradient hdiff)
    (by rw [hx]; norm_num) hy (by rw [hx, eDist, Fin.sum_univ_two]; norm_num; exact h4)
  refine ⟨κ, h1, h2, fun a => ?_⟩
  rw [h3 a, hx]
  fin_cases a <;> norm_num

/-- The ground seen from height 3. -/
example : ∃ κ, 1 - κ ≤ 2 / 10 ^ 12 ∧ κ ≤ 1 ∧ ∀ a, (baseSdf realFns trueGrad (planeDist (planeNormal realFns ![0, 1]))
    fun _ => 0).normal (SdfState.create fun _ => 0) ![5, 3] a = κ * (![0, 1] : Fin 2 → ℝ) a := by
  have hn : norm2 realFns (![0, 1] : Fin 2 → ℝ) = 1 := by simp [norm2, realFns]
  have hform : ∀ z : Fin 2 → ℝ, signedDist (posed (SdfState.create fun _ => 0) (halfSpace ![0, 1])) z = z 1 := by
    intro z
    rw [signedDist_posed (by simp [ProperPose]), signedDist_halfSpace (by rw [← norm2_eDist, hn]; norm_num), toLocal_origin,
      ← norm2_eDist, hn]
    simp [Fin.sum_univ_two]
  have hx := hform ![5, 3]
  have hdiff : DifferentiableAt ℝ ((baseSdf realFns trueGrad (planeDist (planeNormal realFns ![0, 1])) fun _ => 0).dist
      (SdfState.create fun _ => 0)) ![5, 3] := by
    have he : (baseSdf realFns trueGrad (planeDist (planeNormal realFns ![0, 1])) fun _ => 0).dist (SdfState.create fun _ => 0) =
        fun z : Fin 2 → ℝ => z 1 * (1 / (1 + 1 / 10 ^ 12)) := by
      funext z
      change planeDist _ (toLocal realFns (SdfState.create fun _ => 0) z) = _
      rw [toLocal_origin]
      simp [planeDist, dotv, planeNormal, hn, Fin.sum_univ_two]
    rw [he]
    fun_prop
  obtain ⟨κ, h1, h2, h3⟩ := plane_normal trueGrad (fun _ => 0) (m := ![0, 1]) (by rw [hn]; norm_num)
    (s := SdfState.create fun _ => 0) (by simp [ProperPose]) (x := ![5, 3]) (y := ![5, 0]) (trueGrad_isGradient hdiff)
    (by rw [hx]; norm_num) (by rw [hform]; norm_num)
    (by rw [hx, eDist, Fin.sum_univ_two]; norm_num; rw [show (9 : ℝ) = 3 ^ 2 by norm_num]; exact Real.sqrt_sq (by norm_num))
  rw [hn] at h1
  refine ⟨κ, by linarith, h2, fun a => ?_⟩
  rw [h3 a, hx]
  fin_cases a <;> norm_num

end
end Hydrax
