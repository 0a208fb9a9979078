import Verif.Lemmas.Transfer
import Mathlib.Algebra.Order.BigOperators.Ring.Finset
import Mathlib.Tactic.Positivity
import Mathlib.Tactic.Linarith

/-!
# Kinetic energy estimates (helper lemmas)
-/

set_option linter.unusedSectionVars false

namespace Hydrax

section
variable {K : Type*} [Field K] [LinearOrder K] [IsStrictOrderedRing K] {dim n w N : ℕ}
  {c : InteractionCache K n w}

/-- Kinetic energy of the nodes `j < N` with the velocities that G2P uses. -/
def gridKE (N : ℕ) (cut : K) (mass : ℕ → K) (mom : ℕ → Fin dim → K) : K :=
  ∑ j ∈ Finset.range N, 1 / 2 * mass j * ∑ a, nodeVel cut (mass j) (mom j a) ^ 2

theorem mul_nodeVel_sq_le (cut m mom E : K) (hcut : 0 ≤ cut) (hE : 0 ≤ E) (h : mom ^ 2 ≤ m * E) :
    m * nodeVel cut m mom ^ 2 ≤ E := by
  unfold nodeVel
  by_cases hm : m > cut
  · rw [if_pos hm, if_pos hm]
    have h0 : 0 < m := lt_of_le_of_lt hcut hm
    have : m * (mom / m) ^ 2 = mom ^ 2 / m := by field_simp
    rw [this, div_le_iff₀ h0, mul_comm]; exact h
  · rw [if_neg hm]; simpa using hE

/-- Cauchy–Schwarz for a scatter. -/
theorem scatter_sq_le {m : ℕ} (idx : Fin m → ℕ) (wt v : Fin m → K) (hw : ∀ i, 0 ≤ wt i) (j : ℕ) :
    (scatterAdd idx (fun i => wt i * v i) j) ^ 2
      ≤ scatterAdd idx wt j * scatterAdd idx (fun i => wt i * v i ^ 2) j := by
  unfold scatterAdd
  refine Finset.sum_sq_le_sum_mul_sum_of_sq_le_mul _ (fun i _ => ?_) (fun i _ => ?_) (fun i _ => ?_)
  · split_ifs; exacts [hw i, le_rfl]
  · split_ifs; exacts [mul_nonneg (hw i) (sq_nonneg _), le_rfl]
  · refine le_of_eq ?_
    split_ifs
    · ring
    · simp

/-- Jensen for the interpolation of one point. -/
theorem pointSum_sq_le (hc : GoodCache c N) (u : Fin (n * w) → K) (p : Fin n) :
    (pointSum c (fun i => c.shapeVal i * u i) p) ^ 2 ≤ pointSum c (fun i => c.shapeVal i * u i ^ 2) p := by
  have h := Finset.sum_sq_le_sum_mul_sum_of_sq_le_mul
    (Finset.univ.filter fun i => c.pointId i = p) (r := fun i => c.shapeVal i * u i)
    (f := c.shapeVal) (g := fun i => c.shapeVal i * u i ^ 2)
    (fun i _ => hc.val_nonneg i) (fun i _ => mul_nonneg (hc.val_nonneg i) (sq_nonneg _))
    (fun i _ => le_of_eq (by ring))
  have h1 : ∑ i with c.pointId i = p, c.shapeVal i = 1 := hc.sum_val p
  rw [h1, one_mul] at h
  exact h

theorem p2g_ke (hc : GoodCache c N) (s : MPState K dim n) (hm : ∀ p, 0 ≤ s.mass p) (cut : K)
    (hcut : 0 ≤ cut) :
    gridKE N cut (p2gBody c s GridArrays.new).mass (p2gBody c s GridArrays.new).moment
      ≤ ∑ p, s.KE p := by
  have hE : ∀ p, s.KE p = ∑ a, 1 / 2 * (s.mass p * s.velocity p a ^ 2) := by
    intro p; unfold MPState.KE; rw [Finset.mul_sum]
    exact Finset.sum_congr rfl fun a _ => by ring
  simp only [hE]
  rw [Finset.sum_comm]
  unfold gridKE
  simp only [Finset.mul_sum]
  rw [Finset.sum_comm]
  refine Finset.sum_le_sum fun a _ => ?_
  rw [← Finset.mul_sum]
  have hr : ∀ j, 1 / 2 * (p2gBody c s GridArrays.new).mass j *
      nodeVel cut ((p2gBody c s GridArrays.new).mass j) ((p2gBody c s GridArrays.new).moment j a) ^ 2
      ≤ 1 / 2 * scatterAdd c.nodeHash
          (fun i => c.shapeVal i * s.mass (c.pointId i) * s.velocity (c.pointId i) a ^ 2) j := by
    intro j
    rw [mul_assoc]
    refine mul_le_mul_of_nonneg_left ?_ (by norm_num)
    have hw : ∀ i, 0 ≤ c.shapeVal i * s.mass (c.pointId i) :=
      fun i => mul_nonneg (hc.val_nonneg i) (hm _)
    refine mul_nodeVel_sq_le _ _ _ _ hcut
      (scatterAdd_nonneg _ _ (fun i => mul_nonneg (hw i) (sq_nonneg _)) j) ?_
    rw [p2g_mass hc, p2g_moment hc]
    simp only [GridArrays.new, zero_add]
    exact scatter_sq_le _ _ _ hw j
  refine (Finset.sum_le_sum fun j _ => hr j).trans ?_
  rw [← Finset.mul_sum, sum_scatterAdd _ hc.hash_lt,
    ← sum_point_field hc (fun p => s.mass p * s.velocity p a ^ 2)]
  refine le_of_eq ?_
  congr 1
  exact Finset.sum_congr rfl fun i _ => by ring

theorem interp_ke (hc : GoodCache c N) (m : Fin n → K) (hm : ∀ p, 0 ≤ m p) (u : ℕ → Fin dim → K) :
    ∑ p, 1 / 2 * m p * ∑ a, pointSum c (fun i => c.shapeVal i * u (c.nodeHash i) a) p ^ 2
      ≤ ∑ j ∈ Finset.range N, 1 / 2 * nodeMass c m j * ∑ a, u j a ^ 2 := by
  simp only [Finset.mul_sum]
  rw [Finset.sum_comm]
  refine le_trans ?_ (le_of_eq Finset.sum_comm)
  refine Finset.sum_le_sum fun a _ => ?_
  have h1 := sum_mass_interp hc m (fun j => u j a ^ 2)
  have h2 : ∑ j ∈ Finset.range N, 1 / 2 * nodeMass c m j * u j a ^ 2
      = 1 / 2 * ∑ j ∈ Finset.range N, nodeMass c m j * u j a ^ 2 := by
    rw [Finset.mul_sum]; exact Finset.sum_congr rfl fun j _ => by ring
  rw [h2, ← h1, Finset.mul_sum]
  refine Finset.sum_le_sum fun p _ => ?_
  rw [mul_assoc]
  exact mul_le_mul_of_nonneg_left
    (mul_le_mul_of_nonneg_left (pointSum_sq_le hc (fun i => u (c.nodeHash i) a) p) (hm p)) (by norm_num)

theorem g2p_ke (hc : GoodCache c N) (s : MPState K dim n) (hm : ∀ p, 0 ≤ s.mass p) (dt : K)
    (gr : GridArrays K dim) (hg : ∀ j, gr.mass j = nodeMass c s.mass j) :
    ∑ p, (g2pBody 0 dt c none gr s).KE p ≤ gridKE N uslCutoff gr.mass gr.momentNt := by
  have h := interp_ke hc s.mass hm (fun j a => nodeVel uslCutoff (gr.mass j) (gr.momentNt j a))
  unfold gridKE
  have e1 : ∀ p, (g2pBody 0 dt c none gr s).KE p = 1 / 2 * s.mass p * ∑ a,
      pointSum c (fun i => c.shapeVal i *
        nodeVel uslCutoff (gr.mass (c.nodeHash i)) (gr.momentNt (c.nodeHash i) a)) p ^ 2 := by
    intro p
    simp [MPState.KE, g2pBody, ghostBlend]
  simp only [e1]
  refine h.trans (le_of_eq (Finset.sum_congr rfl fun j _ => ?_))
  simp only [hg]

end
end Hydrax
