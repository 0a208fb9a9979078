import Verif.Props.EnergyBalance
import Mathlib.Algebra.Order.BigOperators.Ring.Finset

/-!
# Estimates for the nodal forces and velocity gradients of smooth kernels
-/

set_option linter.unusedSectionVars false

namespace Hydrax
open Spec

section
variable {K : Type*} [Field K] [LinearOrder K] [IsStrictOrderedRing K] [FloorRing K] {dim : ℕ}

/-- Bound of the squared slope of a smooth kernel relative to its value. -/
def steep : Kernel → K
  | .linear => 0
  | .quadratic => 2
  | .cubic => 9 / 4

theorem steep_nonneg (ker : Kernel) : 0 ≤ (steep ker : K) := by cases ker <;> norm_num [steep]

/-- A smooth kernel is steep only where it is large. -/
theorem dbasis_sq_le (ker : Kernel) (hker : ker ≠ .linear) (c x : K) :
    dbasis1 c ker x ^ 2 ≤ steep ker * c ^ 2 * basis1 ker x := by
  have hc := sq_nonneg c
  cases ker with
  | linear => exact absurd rfl hker
  | quadratic =>
    simp only [dbasis1, basis1, quadraticDBasis, quadraticBasis, steep]
    split_ifs with h1 h2 h3
    · nlinarith
    · obtain ⟨a, b⟩ := h2
      have : 0 ≤ 1 / 4 - x ^ 2 := by nlinarith
      nlinarith [mul_nonneg hc this]
    · nlinarith
    · simp
  | cubic =>
    simp only [dbasis1, basis1, cubicDBasis, cubicBasis, steep]
    split_ifs with h1 h2 h3 h4
    · obtain ⟨a, b⟩ := h1
      have e : 9 / 4 * c ^ 2 * (((1 / 6 * x + 1) * x + 2) * x + 4 / 3) - (c * ((1 / 2 * x + 2) * x + 2)) ^ 2 =
        c ^ 2 * ((x + 2) ^ 3 * (3 / 8 - (x + 2) / 4)) := by ring
      have : 0 ≤ c ^ 2 * ((x + 2) ^ 3 * (3 / 8 - (x + 2) / 4)) :=
        mul_nonneg hc (mul_nonneg (pow_nonneg (by linarith) 3) (by linarith))
      linarith
    · obtain ⟨a, b⟩ := h2
      have e : 9 / 4 * c ^ 2 * ((-(1 / 2) * x - 1) * x * x + 2 / 3) - (c * (-3 / 2 * x - 2) * x) ^ 2 =
        c ^ 2 * (3 / 2 - 25 / 4 * x ^ 2 - 57 / 8 * x ^ 3 - 9 / 4 * x ^ 4) := by ring
      have : 0 ≤ c ^ 2 * (3 / 2 - 25 / 4 * x ^ 2 - 57 / 8 * x ^ 3 - 9 / 4 * x ^ 4) := by
        refine mul_nonneg hc ?_
        nlinarith [sq_nonneg (x + 4 / 5), mul_nonneg (by linarith : 0 ≤ -x) (by linarith : 0 ≤ x + 1), sq_nonneg (x * (x + 4 / 5)),
          mul_nonneg (mul_nonneg (by linarith : 0 ≤ -x) (by linarith : 0 ≤ x + 1)) (sq_nonneg (x + 4/5))]
      linarith
    · obtain ⟨a, b⟩ := h3
      have e : 9 / 4 * c ^ 2 * ((1 / 2 * x - 1) * x * x + 2 / 3) - (c * (3 / 2 * x - 2) * x) ^ 2 =
        c ^ 2 * (3 / 2 - 25 / 4 * x ^ 2 + 57 / 8 * x ^ 3 - 9 / 4 * x ^ 4) := by ring
      have : 0 ≤ c ^ 2 * (3 / 2 - 25 / 4 * x ^ 2 + 57 / 8 * x ^ 3 - 9 / 4 * x ^ 4) := by
        refine mul_nonneg hc ?_
        nlinarith [sq_nonneg (x - 4 / 5), mul_nonneg (by linarith : 0 ≤ x) (by linarith : 0 ≤ 1 - x), sq_nonneg (x * (x - 4 / 5)),
          mul_nonneg (mul_nonneg (by linarith : 0 ≤ x) (by linarith : 0 ≤ 1 - x)) (sq_nonneg (x - 4/5))]
      linarith
    · obtain ⟨a, b⟩ := h4
      have e : 9 / 4 * c ^ 2 * (((-1 / 6 * x + 1) * x - 2) * x + 4 / 3) - (c * ((-(1 / 2) * x + 2) * x - 2)) ^ 2 =
        c ^ 2 * ((2 - x) ^ 3 * (3 / 8 - (2 - x) / 4)) := by ring
      have : 0 ≤ c ^ 2 * ((2 - x) ^ 3 * (3 / 8 - (2 - x) / 4)) :=
        mul_nonneg hc (mul_nonneg (pow_nonneg (by linarith) 3) (by linarith))
      linarith
    · simp

/-- Sum over the nodes of a point of squared gradients over weights. -/
theorem stencil_grad_sq {ker : Kernel} (hker : ker ≠ .linear) {g : GridDomain K dim} {xp : Fin dim → K} (hdim : dim = 2 ∨ dim = 3)
    (h : StencilInside ker g xp) (k : Fin 3) :
    ∑ s : Fin (windowSize ker dim), (computeSingle ker g xp s).shapeGrad k ^ 2 / (computeSingle ker g xp s).shapeVal ≤
      steep ker * winLen ker * g.invCellSize ^ 2 := by
  have hst := steep_nonneg (K := K) ker
  by_cases hk : k.val < dim
  · have hle : ∀ s : Fin (windowSize ker dim), (computeSingle ker g xp s).shapeGrad k ^ 2 / (computeSingle ker g xp s).shapeVal ≤
        ∏ d, if d = (⟨k.val, hk⟩ : Fin dim) then steep ker * g.invCellSize ^ 2 else basis1 ker (distVec ker g xp s d) := by
      intro s
      have hR : 0 ≤ ∏ d, if d = (⟨k.val, hk⟩ : Fin dim) then steep ker * g.invCellSize ^ 2 else basis1 ker (distVec ker g xp s d) := by
        refine Finset.prod_nonneg fun d _ => ?_
        split_ifs
        · positivity
        · exact basis1_nonneg ker _
      rw [computeSingle_grad ker g xp s (h s s.isLt), computeSingle_val ker g xp s (h s s.isLt)]
      have hv : 0 ≤ ∏ d, basis1 ker (distVec ker g xp s d) := Finset.prod_nonneg fun d _ => basis1_nonneg ker _
      refine div_le_of_le_mul₀ hv hR ?_
      rw [pad3_lt _ k hk, tensorGrad_eq hdim, ← Finset.prod_pow, ← Finset.prod_mul_distrib]
      refine Finset.prod_le_prod (fun d _ => sq_nonneg _) fun d _ => ?_
      split_ifs
      · exact dbasis_sq_le ker hker _ _
      · rw [sq]
    refine (Finset.sum_le_sum fun s _ => hle s).trans (le_of_eq ?_)
    have := sum_stencil_sep ker g xp (fun d x => if d = (⟨k.val, hk⟩ : Fin dim) then steep ker * g.invCellSize ^ 2 else basis1 ker x)
    rw [this, Finset.prod_eq_single (⟨k.val, hk⟩ : Fin dim)]
    · simp; ring
    · intro d _ hd
      simp only [if_neg hd]
      exact sum_basis ker (basePos g xp d)
    · intro hx; exact absurd (Finset.mem_univ _) hx
  · rw [Finset.sum_congr rfl (fun s _ => by rw [computeSingle_grad ker g xp s (h s s.isLt)])]
    simp only [pad3_ge _ k hk]
    simp
    positivity

/-- The same for the interaction list of all points. -/
theorem compute_grad_sq {ker : Kernel} (hker : ker ≠ .linear) (hdim : dim = 2 ∨ dim = 3) (o e : Fin dim → K) (h : K) (hh : 0 < h)
    (pad : ℕ) (hpad : 2 ≤ pad) {n : ℕ} (pos : Fin n → Fin dim → K) (p : Fin n) (hx : InBox o e (pos p)) (k : Fin 3) :
    let c := compute ker (GridDomain.create o e h pad) pos
    pointSum c (fun i => c.shapeGrad i k ^ 2 / c.shapeVal i) p ≤ steep ker * winLen ker / h ^ 2 := by
  intro c
  have hin : StencilInside ker (GridDomain.create o e h pad) (pos p) := stencilInside_of_inBox ker o e h hh pad
    (le_trans (by cases ker <;> decide) hpad) (pos p) hx
  have hg : (GridDomain.create o e h pad).cellSize * (GridDomain.create o e h pad).invCellSize = 1 := create_inv o e h hh pad
  have h1 := compute_sum_point ker (GridDomain.create o e h pad) pos p (fun _ I => I.shapeGrad k ^ 2 / I.shapeVal)
  refine (le_of_eq h1).trans ((stencil_grad_sq hker hdim hin k).trans (le_of_eq ?_))
  have e1 : (GridDomain.create o e h pad).invCellSize = 1 / h := by
    have : (GridDomain.create o e h pad).cellSize = h := rfl
    rw [this] at hg
    rw [eq_div_iff hh.ne', mul_comm]; exact hg
  rw [e1]; ring

variable {n w N : ℕ} {c : InteractionCache K n w}

theorem grad_sq_le (hc : GoodCache c N) (i : Fin (n * w)) (k : Fin 3) :
    c.shapeGrad i k ^ 2 ≤ c.shapeGrad i k ^ 2 / c.shapeVal i * c.shapeVal i := by
  by_cases h : c.shapeVal i = 0
  · simp [hc.grad_zero i h k]
  · rw [div_mul_cancel₀ _ h]

theorem ratio_nonneg (hc : GoodCache c N) (i : Fin (n * w)) (k : Fin 3) : 0 ≤ c.shapeGrad i k ^ 2 / c.shapeVal i :=
  div_nonneg (sq_nonneg _) (hc.val_nonneg i)

/-- Squared size of a tensor. -/
def Spec.normSq (A : Matrix (Fin 3) (Fin 3) K) : K := ∑ a, ∑ b, A a b ^ 2

theorem scatterAdd_nonneg' {m : ℕ} (idx : Fin m → ℕ) (v : Fin m → K) (h : ∀ i, 0 ≤ v i) (j : ℕ) : 0 ≤ scatterAdd idx v j :=
  Finset.sum_nonneg fun i _ => by split_ifs <;> [exact h i; exact le_rfl]

/-- Cauchy-Schwarz at a node. -/
theorem scatterAdd_sq_le {m : ℕ} (idx : Fin m → ℕ) (t A B : Fin m → K) (hA : ∀ i, 0 ≤ A i) (hB : ∀ i, 0 ≤ B i)
    (h : ∀ i, t i ^ 2 ≤ A i * B i) (j : ℕ) : scatterAdd idx t j ^ 2 ≤ scatterAdd idx A j * scatterAdd idx B j := by
  unfold scatterAdd
  refine Finset.sum_sq_le_sum_mul_sum_of_sq_le_mul _ (fun i _ => ?_) (fun i _ => ?_) fun i _ => ?_
  · split_ifs <;> [exact hA i; exact le_rfl]
  · split_ifs <;> [exact hB i; exact le_rfl]
  · split_ifs <;> [exact h i; simp]

/-- Sum of the squared gradient over the weight, all axes. -/
def gradRatio (c : InteractionCache K n w) (i : Fin (n * w)) : K := ∑ k, c.shapeGrad i k ^ 2 / c.shapeVal i

theorem gradRatio_nonneg (hc : GoodCache c N) (i : Fin (n * w)) : 0 ≤ gradRatio c i :=
  Finset.sum_nonneg fun k _ => ratio_nonneg hc i k

/-- Energy that the stresses of a body give to the nodes in a step from rest. -/
theorem kick_le (hc : GoodCache c N) (hdim : dim = 2 ∨ dim = 3) (s : MPState K dim n) (hm : ∀ q, 0 < s.mass q)
    (hf : s.force = fun _ _ => 0) {κ : K} (hκ : ∀ p, pointSum c (gradRatio c) p ≤ κ) (dt cut : K) (hcut : 0 ≤ cut) :
    ∑ j ∈ Finset.range N, ∑ a, nodeMass c s.mass j *
      nodeVel cut (nodeMass c s.mass j) ((p2gBody c s GridArrays.new).force j a * dt) ^ 2 ≤
    dt ^ 2 * κ * ∑ p, s.volume p ^ 2 / s.mass p * normSq (s.stress p) := by
  have hd3 : dim ≤ 3 := by omega
  let Q : Fin dim → Fin n → K := fun a p => s.volume p ^ 2 / s.mass p * ∑ b, s.stress p ⟨a, by omega⟩ b ^ 2
  have hQ : ∀ a p, 0 ≤ Q a p := fun a p => mul_nonneg (div_nonneg (sq_nonneg _) (hm _).le)
    (Finset.sum_nonneg fun _ _ => sq_nonneg _)
  let B : Fin dim → Fin (n * w) → K := fun a i => Q a (c.pointId i) * gradRatio c i
  have hB : ∀ a i, 0 ≤ B a i := fun a i => mul_nonneg (hQ a _) (gradRatio_nonneg hc i)
  have hnode : ∀ j a, nodeMass c s.mass j *
      nodeVel cut (nodeMass c s.mass j) ((p2gBody c s GridArrays.new).force j a * dt) ^ 2 ≤
      dt ^ 2 * scatterAdd c.nodeHash (B a) j := by
    intro j a
    have hsc := scatterAdd_nonneg' c.nodeHash (B a) (hB a) j
    by_cases hM : nodeMass c s.mass j > cut
    · have h0 : 0 < nodeMass c s.mass j := lt_of_le_of_lt hcut hM
      have hcs : (p2gBody c s GridArrays.new).force j a ^ 2 ≤ nodeMass c s.mass j * scatterAdd c.nodeHash (B a) j := by
        rw [p2g_force hc]
        refine scatterAdd_sq_le _ _ _ _ (fun i => mul_nonneg (hc.val_nonneg i) (hm _).le) (hB a) (fun i => ?_) j
        have ha : a.val < 3 := by omega
        simp only [hf, mul_zero, add_zero, internTerm, trunc3, dif_pos ha, mul_pow]
        have h1 := Finset.sum_mul_sq_le_sq_mul_sq Finset.univ (fun b => s.stress (c.pointId i) ⟨a, ha⟩ b) (c.shapeGrad i)
        have h2 : ∑ b, c.shapeGrad i b ^ 2 ≤ gradRatio c i * c.shapeVal i := by
          rw [gradRatio, Finset.sum_mul]
          exact Finset.sum_le_sum fun k _ => grad_sq_le hc i k
        have h3 : (0 : K) ≤ ∑ b, s.stress (c.pointId i) ⟨a, ha⟩ b ^ 2 := Finset.sum_nonneg fun _ _ => sq_nonneg _
        have h4 := mul_le_mul_of_nonneg_left (h1.trans (mul_le_mul_of_nonneg_left h2 h3)) (sq_nonneg (s.volume (c.pointId i)))
        refine h4.trans (le_of_eq ?_)
        have hmi := (hm (c.pointId i)).ne'
        simp only [B, Q]
        field_simp
      have hv : nodeMass c s.mass j * nodeVel cut (nodeMass c s.mass j) ((p2gBody c s GridArrays.new).force j a * dt) ^ 2 =
          dt ^ 2 * ((p2gBody c s GridArrays.new).force j a ^ 2 / nodeMass c s.mass j) := by
        unfold nodeVel
        rw [if_pos hM, if_pos hM]
        field_simp
      rw [hv]
      refine mul_le_mul_of_nonneg_left ?_ (sq_nonneg _)
      rw [div_le_iff₀ h0, mul_comm]
      exact hcs
    · have : nodeVel cut (nodeMass c s.mass j) ((p2gBody c s GridArrays.new).force j a * dt) = 0 := by
        unfold nodeVel; rw [if_neg hM]
      rw [this]
      simpa using mul_nonneg (sq_nonneg dt) hsc
  refine (Finset.sum_le_sum fun j _ => Finset.sum_le_sum fun a _ => hnode j a).trans ?_
  rw [Finset.sum_comm]
  simp only [← Finset.mul_sum, sum_scatterAdd _ hc.hash_lt]
  rw [mul_assoc]
  refine mul_le_mul_of_nonneg_left ?_ (sq_nonneg _)
  have hpt : ∀ a, ∑ i, B a i ≤ ∑ p, Q a p * κ := fun a => by
    simp only [B]
    rw [sum_by_point c (Q a) (gradRatio c)]
    exact Finset.sum_le_sum fun p _ => mul_le_mul_of_nonneg_left (hκ p) (hQ a p)
  refine (Finset.sum_le_sum fun a _ => hpt a).trans ?_
  rw [Finset.sum_comm, Finset.mul_sum]
  refine Finset.sum_le_sum fun p _ => ?_
  have hκ0 : 0 ≤ κ := le_trans (Finset.sum_nonneg fun i _ => gradRatio_nonneg hc i) (hκ p)
  have h5 : ∑ a : Fin dim, ∑ b, s.stress p ⟨a, by omega⟩ b ^ 2 ≤ normSq (s.stress p) := by
    unfold normSq
    rcases hdim with rfl | rfl
    · rw [Fin.sum_univ_two, Fin.sum_univ_three (fun a : Fin 3 => ∑ b, s.stress p a b ^ 2)]
      have : (0 : K) ≤ ∑ b, s.stress p 2 b ^ 2 := Finset.sum_nonneg fun _ _ => sq_nonneg _
      exact le_add_of_nonneg_right this
    · exact le_rfl
  rw [← Finset.sum_mul]
  simp only [Q, ← Finset.mul_sum]
  rw [mul_comm]
  exact mul_le_mul_of_nonneg_left (mul_le_mul_of_nonneg_left h5 (div_nonneg (sq_nonneg _) (hm p).le)) hκ0

/-- Velocity gradients are bounded by the energy of the nodes. -/
theorem strain_le (hc : GoodCache c N) (m : Fin n → K) (hm : ∀ q, 0 ≤ m q) {κ : K} (hκ : ∀ p, pointSum c (gradRatio c) p ≤ κ)
    (u : ℕ → Fin dim → K) :
    ∑ p, m p * ∑ a, ∑ b : Fin 3, pointSum c (fun i => c.shapeGrad i b * u (c.nodeHash i) a) p ^ 2 ≤
      κ * ∑ j ∈ Finset.range N, ∑ a, nodeMass c m j * u j a ^ 2 := by
  have hpt : ∀ p a, ∑ b : Fin 3, pointSum c (fun i => c.shapeGrad i b * u (c.nodeHash i) a) p ^ 2 ≤
      κ * pointSum c (fun i => c.shapeVal i * u (c.nodeHash i) a ^ 2) p := by
    intro p a
    have h1 : ∀ b : Fin 3, pointSum c (fun i => c.shapeGrad i b * u (c.nodeHash i) a) p ^ 2 ≤
        pointSum c (fun i => c.shapeGrad i b ^ 2 / c.shapeVal i) p * pointSum c (fun i => c.shapeVal i * u (c.nodeHash i) a ^ 2) p := by
      intro b
      refine Finset.sum_sq_le_sum_mul_sum_of_sq_le_mul _ (fun i _ => ratio_nonneg hc i b)
        (fun i _ => mul_nonneg (hc.val_nonneg i) (sq_nonneg _)) fun i _ => ?_
      rw [mul_pow, ← mul_assoc]
      exact mul_le_mul_of_nonneg_right (grad_sq_le hc i b) (sq_nonneg _)
    refine (Finset.sum_le_sum fun b _ => h1 b).trans ?_
    rw [← Finset.sum_mul]
    refine mul_le_mul_of_nonneg_right ?_ (Finset.sum_nonneg fun i _ => mul_nonneg (hc.val_nonneg i) (sq_nonneg _))
    refine le_trans (le_of_eq ?_) (hκ p)
    unfold pointSum gradRatio
    rw [Finset.sum_comm]
  refine (Finset.sum_le_sum fun p _ => mul_le_mul_of_nonneg_left (Finset.sum_le_sum fun a _ => hpt p a) (hm p)).trans (le_of_eq ?_)
  rw [Finset.sum_comm, Finset.mul_sum]
  simp only [Finset.mul_sum]
  rw [Finset.sum_comm]
  refine Finset.sum_congr rfl fun a _ => ?_
  have h2 := sum_mass_interp hc m (fun j => u j a ^ 2)
  rw [← Finset.mul_sum, ← h2, Finset.mul_sum]
  exact Finset.sum_congr rfl fun p _ => by ring

end

section
variable {K : Type*} [Field K] [LinearOrder K] [IsStrictOrderedRing K] [FloorRing K] {dim : ℕ}

theorem compute_gradRatio {ker : Kernel} (hker : ker ≠ .linear) (hdim : dim = 2 ∨ dim = 3) (o e : Fin dim → K) (h : K) (hh : 0 < h)
    (pad : ℕ) (hpad : 2 ≤ pad) {n : ℕ} (pos : Fin n → Fin dim → K) (p : Fin n) (hx : InBox o e (pos p)) :
    pointSum (compute ker (GridDomain.create o e h pad) pos) (gradRatio (compute ker (GridDomain.create o e h pad) pos)) p ≤
      dim * (steep ker * winLen ker) / h ^ 2 := by
  set c := compute ker (GridDomain.create o e h pad) pos with hcdef
  have h1 : pointSum c (gradRatio c) p = ∑ k, pointSum c (fun i => c.shapeGrad i k ^ 2 / c.shapeVal i) p := by
    unfold pointSum gradRatio
    rw [Finset.sum_comm]
  have hb := fun k => compute_grad_sq hker hdim o e h hh pad hpad pos p hx k
  have hz : ∀ k : Fin 3, ¬ k.val < dim → pointSum c (fun i => c.shapeGrad i k ^ 2 / c.shapeVal i) p = 0 := by
    intro k hk
    have hin : StencilInside ker (GridDomain.create o e h pad) (pos p) := stencilInside_of_inBox ker o e h hh pad
      (le_trans (by cases ker <;> decide) hpad) (pos p) hx
    have h2 := compute_sum_point ker (GridDomain.create o e h pad) pos p (fun _ I => I.shapeGrad k ^ 2 / I.shapeVal)
    refine h2.trans (Finset.sum_eq_zero fun s _ => ?_)
    rw [computeSingle_grad ker _ _ s (hin s s.isLt), pad3_ge _ k hk]
    simp
  rw [h1, Fin.sum_univ_three]
  simp only at hb
  rw [← hcdef] at hb
  have b0 := hb 0
  have b1 := hb 1
  have b2 := hb 2
  rcases hdim with rfl | rfl
  · rw [hz 2 (by decide)]
    refine le_trans (by linarith) (le_of_eq (show steep ker * winLen ker / h ^ 2 + steep ker * winLen ker / h ^ 2 = _ by push_cast; ring))
  · refine le_trans (add_le_add (add_le_add b0 b1) b2) (le_of_eq (by push_cast; ring))

end
end Hydrax
