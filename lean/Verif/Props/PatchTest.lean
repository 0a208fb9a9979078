import Verif.Lemmas.Fill
import Verif.Props.FreeFall
import Verif.Props.Gather

/-!
# Regularly filled regions under uniform and linearly varying stress (C129)
-/

set_option linter.unusedSectionVars false

namespace Hydrax
open Spec

section
variable {K : Type*} [Field K] [LinearOrder K] [IsStrictOrderedRing K] [FloorRing K] {dim n m : ℕ}

/-- The divergence of the stress `σ₀ + ∑ d, x_d T_d`. -/
def Spec.stressDiv (T : Fin dim → Mat3 K) : Fin 3 → K := fun a => ∑ c : Fin dim, if h : c.val < 3 then T c a ⟨c, h⟩ else 0

/-- A block of a body: its points form a lattice with the spacing of the grid, masses and volumes are those of the classes, and the stress
is that of the class plus a part that varies linearly with the place. -/
structure Spec.Patch (g : GridDomain K dim) (lo hi : Fin dim → K) (cls : Fin n → Fin m) (ξ : Fin m → Fin dim → K) (M V : Fin m → K)
    (σ : Fin m → Mat3 K) (T : Fin dim → Mat3 K) (s : MPState K dim n) : Prop where
  filled : Filled g lo hi cls ξ s.position
  mass : ∀ p, InBlock g lo hi (s.position p) → s.mass p = M (cls p)
  volume : ∀ p, InBlock g lo hi (s.position p) → s.volume p = V (cls p)
  stress : ∀ p, InBlock g lo hi (s.position p) → s.stress p = σ (cls p) + ∑ d, s.position p d • T d

/-- The node number `i` and the kernels that cover it lie in the block. -/
def Spec.InnerNode (ker : Kernel) (g : GridDomain K dim) (lo hi : Fin dim → K) (i : ℕ) : Prop :=
  i < g.numCells ∧ ∀ d, lo d + halfWidth ker ≤ cellCoord g (g.positionStack i) d ∧ cellCoord g (g.positionStack i) d + halfWidth ker ≤ hi d

theorem node_index {g : GridDomain K dim} (hg : g.cellSize * g.invCellSize = 1) {i : ℕ} (hi : i < g.numCells) :
    ∃ j : Fin dim → ℤ, isValid g.gridSize j ∧ i = nodeHashOf g j ∧ (∀ d, cellCoord g (g.positionStack i) d = j d) ∧
      ∀ d, g.positionStack i d = (j d : K) * g.cellSize + g.origin d := by
  have hh : g.cellSize ≠ 0 := fun h => by rw [h, zero_mul] at hg; exact zero_ne_one hg
  set j : Fin dim → ℤ := fun d => (unravel dim g.gridSize i d : ℤ) with hj
  have hv : isValid g.gridSize j := fun d => by
    have := unravel_lt dim g.gridSize i hi d
    exact ⟨Int.natCast_nonneg _, by simp only [hj]; exact_mod_cast this⟩
  have e : i = nodeHashOf g j := by
    unfold nodeHashOf
    simp only [hj, Int.toNat_natCast]
    exact (ravel_unravel dim g.gridSize i hi).symm
  have hp : ∀ d, g.positionStack i d = (j d : K) * g.cellSize + g.origin d := fun d => by
    rw [e, positionStack_nodeHashOf g j hv]; rfl
  refine ⟨j, hv, e, fun d => ?_, hp⟩
  unfold cellCoord
  rw [hp d]
  field_simp
  ring

theorem place_of_cellCoord {g : GridDomain K dim} (hg : g.cellSize * g.invCellSize = 1) (x : Fin dim → K) (d : Fin dim) :
    x d = g.origin d + g.cellSize * cellCoord g x d := by
  have hh : g.cellSize ≠ 0 := fun h => by rw [h, zero_mul] at hg; exact zero_ne_one hg
  unfold cellCoord
  field_simp
  ring

theorem scatterAdd_sum {ι : Type*} {N : ℕ} (idx : Fin N → ℕ) (A : Finset ι) (v : ι → Fin N → K) (j : ℕ) :
    scatterAdd idx (fun i => ∑ c ∈ A, v c i) j = ∑ c ∈ A, scatterAdd idx (v c) j := by
  unfold scatterAdd
  rw [Finset.sum_comm]
  refine Finset.sum_congr rfl fun i _ => ?_
  split_ifs <;> simp

theorem scatterAdd_scaled {N : ℕ} (q : K) (idx : Fin N → ℕ) (v : Fin N → K) (j : ℕ) :
    scatterAdd idx (fun i => q * v i) j = q * scatterAdd idx v j := by
  unfold scatterAdd
  rw [Finset.mul_sum]
  exact Finset.sum_congr rfl fun i _ => by split_ifs <;> simp

/-- Scatter of gradients times a quantity that varies linearly on the classes. -/
theorem fill_grad_affine (hdim : dim = 2 ∨ dim = 3) (ker : Kernel) {g : GridDomain K dim} (hg : g.cellSize * g.invCellSize = 1)
    {lo hi : Fin dim → K} {cls : Fin n → Fin m} {ξ : Fin m → Fin dim → K} {pos : Fin n → Fin dim → K} (hf : Filled g lo hi cls ξ pos)
    (w : Fin n → K) (W q0 : Fin m → K) (t : Fin dim → K) (hlin : ker = .linear → (∀ d, t d = 0) ∨ ∀ b d, ∀ z : ℤ, ξ b d ≠ z)
    {i : ℕ} (hi' : InnerNode ker g lo hi i) (hw : ∀ p, InBlock g lo hi (pos p) → w p = W (cls p)) (q : Fin n → K)
    (hq : ∀ p, InBlock g lo hi (pos p) → q p = W (cls p) * (q0 (cls p) + ∑ d, pos p d * t d)) (a : Fin dim) (h3 : a.val < 3) :
    scatterAdd (compute ker g pos).nodeHash (fun i => (compute ker g pos).shapeGrad i ⟨a, h3⟩ * q ((compute ker g pos).pointId i)) i =
      -(∑ b, W b) * t a := by
  obtain ⟨j, hv, rfl, hc, hx⟩ := node_index hg hi'.1
  have hj : ∀ d, lo d + halfWidth ker ≤ j d ∧ (j d : K) + halfWidth ker ≤ hi d := fun d => by
    have := hi'.2 d
    rw [hc d] at this
    exact this
  set c := compute ker g pos with hcd
  set r : Fin n → K := fun p => q p - ∑ d, g.cellSize * t d * (w p * (cellCoord g (pos p) d - j d)) with hr
  have e : (fun i => c.shapeGrad i ⟨a, h3⟩ * q (c.pointId i)) = fun i => c.shapeGrad i ⟨a, h3⟩ * r (c.pointId i) +
      ∑ d, g.cellSize * t d * (c.shapeGrad i ⟨a, h3⟩ * (w (c.pointId i) * (cellCoord g (pos (c.pointId i)) d - j d))) := by
    funext i
    have hsw : ∑ d, g.cellSize * t d * (c.shapeGrad i ⟨a, h3⟩ * (w (c.pointId i) * (cellCoord g (pos (c.pointId i)) d - j d))) =
        c.shapeGrad i ⟨a, h3⟩ * ∑ d, g.cellSize * t d * (w (c.pointId i) * (cellCoord g (pos (c.pointId i)) d - j d)) := by
      rw [Finset.mul_sum]
      exact Finset.sum_congr rfl fun d _ => by ring
    rw [hsw]
    simp only [hr]
    ring
  rw [e, scatterAdd_add, scatterAdd_sum]
  have h1 : scatterAdd c.nodeHash (fun i => c.shapeGrad i ⟨a, h3⟩ * r (c.pointId i)) (nodeHashOf g j) = 0 := by
    refine fill_grad hdim ker hg hf j hv hj r (fun b => W b * (q0 b + ∑ d, (g.origin d + g.cellSize * j d) * t d)) (fun p hp => ?_) a h3
    simp only [hr]
    rw [hq p hp, hw p hp]
    rw [Finset.sum_congr rfl fun d _ => by rw [place_of_cellCoord hg (pos p) d]]
    rw [mul_add, mul_add, add_sub_assoc]
    congr 1
    rw [Finset.mul_sum, Finset.mul_sum, ← Finset.sum_sub_distrib]
    exact Finset.sum_congr rfl fun d _ => by ring
  rw [h1, zero_add]
  simp only [scatterAdd_scaled]
  by_cases ht : ∀ d, t d = 0
  · simp [ht]
  · have hm := fun d => fill_grad_moment hdim ker hg hf (fun h => (hlin h).resolve_left ht) j hv hj w W hw a h3 d
    rw [Finset.sum_congr rfl fun d _ => by rw [hm d]]
    simp only [mul_ite, mul_zero, Finset.sum_ite_eq', Finset.mem_univ, if_true]
    rw [show g.cellSize * t a * (-g.invCellSize * ∑ b, W b) = -(g.cellSize * g.invCellSize) * (∑ b, W b) * t a by ring, hg]
    ring

/-- **C129.** The internal force on a node of the interior is minus the volume of a cell's points times the divergence of the stress. In
particular a stress that is uniform (even only on each class) gives no force. -/
theorem patch_force (hdim : dim = 2 ∨ dim = 3) (ker : Kernel) {g : GridDomain K dim} (hg : g.cellSize * g.invCellSize = 1)
    {lo hi : Fin dim → K} {cls : Fin n → Fin m} {ξ : Fin m → Fin dim → K} {M V : Fin m → K} {σ : Fin m → Mat3 K} {T : Fin dim → Mat3 K}
    {s : MPState K dim n} (hs : Patch g lo hi cls ξ M V σ T s) (hf : ∀ p, s.force p = 0)
    (hlin : ker = .linear → T = 0 ∨ ∀ b d, ∀ z : ℤ, ξ b d ≠ z) (gr : GridArrays K dim) {i : ℕ} (hi' : InnerNode ker g lo hi i) (a : Fin dim) :
    (p2gBody (compute ker g s.position) s gr).force i a = -(∑ b, V b) * trunc3 dim (stressDiv T) a := by
  have ha : a.val < 3 := by omega
  set c := compute ker g s.position with hcd
  have e : (p2gBody c s gr).force i a = scatterAdd c.nodeHash (fun i => ∑ k : Fin 3, c.shapeGrad i k *
      (s.volume (c.pointId i) * s.stress (c.pointId i) ⟨a, ha⟩ k)) i := by
    have hone : ∀ i, c.cpicMask i = 1 := fun _ => rfl
    simp only [p2gBody, hone, mul_one, one_mul, zero_add, hf, Pi.zero_apply, mul_zero, add_zero]
    congr 1
    funext i
    simp only [internTerm, trunc3, dif_pos ha, Finset.mul_sum]
    exact Finset.sum_congr rfl fun k _ => by ring
  rw [e, scatterAdd_sum]
  have key : ∀ k : Fin 3, scatterAdd c.nodeHash (fun i => c.shapeGrad i k * (s.volume (c.pointId i) * s.stress (c.pointId i) ⟨a, ha⟩ k)) i =
      if h : k.val < dim then -(∑ b, V b) * T ⟨k, h⟩ ⟨a, ha⟩ k else 0 := by
    intro k
    split_ifs with hk
    · refine fill_grad_affine hdim ker hg hs.filled s.volume V (fun b => σ b ⟨a, ha⟩ k) (fun d => T d ⟨a, ha⟩ k)
        (fun h => (hlin h).imp (fun h d => by rw [h]; rfl) id) hi' hs.volume
        (fun p => s.volume p * s.stress p ⟨a, ha⟩ k) (fun p hp => ?_) ⟨k, hk⟩ k.isLt
      show s.volume p * s.stress p ⟨a, ha⟩ k = _
      rw [hs.volume p hp, hs.stress p hp, Matrix.add_apply, Matrix.sum_apply]
      simp only [Matrix.smul_apply, smul_eq_mul]
    · exact scatterAdd_eq_zero _ _ _ fun i _ => by rw [fill_grad_plane ker g s.position k hk i, zero_mul]
  rw [Finset.sum_congr rfl fun k _ => key k]
  simp only [trunc3, dif_pos ha, stressDiv, Finset.mul_sum]
  rcases hdim with rfl | rfl
  · rw [Fin.sum_univ_three, Fin.sum_univ_two]
    simp
  · rw [Fin.sum_univ_three, Fin.sum_univ_three]
    simp

/-- **C129.** A node of the interior collects the mass of the points of one cell, and the momentum of an affine velocity field at the
place of the node, although the points carry no velocity gradients. -/
theorem patch_node (ker : Kernel) {g : GridDomain K dim} (hg : g.cellSize * g.invCellSize = 1)
    {lo hi : Fin dim → K} {cls : Fin n → Fin m} {ξ : Fin m → Fin dim → K} {M V : Fin m → K} {σ : Fin m → Mat3 K} {T : Fin dim → Mat3 K}
    {s : MPState K dim n} (hs : Patch g lo hi cls ξ M V σ T s) (u : Fin dim → K) (A : Fin dim → Fin dim → K)
    (hu : ∀ p, InBlock g lo hi (s.position p) → ∀ a, s.velocity p a = u a + ∑ k, A a k * s.position p k)
    {i : ℕ} (hi' : InnerNode ker g lo hi i) :
    nodeMass (compute ker g s.position) s.mass i = ∑ b, M b ∧
    ∀ a, scatterAdd (compute ker g s.position).nodeHash (fun i => (compute ker g s.position).shapeVal i *
      s.mass ((compute ker g s.position).pointId i) * s.velocity ((compute ker g s.position).pointId i) a) i =
      (∑ b, M b) * (u a + ∑ k, A a k * g.positionStack i k) := by
  obtain ⟨j, hv, rfl, hc, hx⟩ := node_index hg hi'.1
  have hj : ∀ d, lo d + halfWidth ker ≤ j d ∧ (j d : K) + halfWidth ker ≤ hi d := fun d => by
    have := hi'.2 d
    rw [hc d] at this
    exact this
  have hm := fill_val ker hg hs.filled j hv hj s.mass M hs.mass
  refine ⟨hm.1, fun a => ?_⟩
  set c := compute ker g s.position with hcd
  set r : Fin n → K := fun p => s.mass p * s.velocity p a - ∑ d, g.cellSize * A a d * (s.mass p * (cellCoord g (s.position p) d - j d)) with hr
  have e : (fun i => c.shapeVal i * s.mass (c.pointId i) * s.velocity (c.pointId i) a) = fun i => c.shapeVal i * r (c.pointId i) +
      ∑ d, g.cellSize * A a d * (c.shapeVal i * (s.mass (c.pointId i) * (cellCoord g (s.position (c.pointId i)) d - j d))) := by
    funext i
    have hsw : ∑ d, g.cellSize * A a d * (c.shapeVal i * (s.mass (c.pointId i) * (cellCoord g (s.position (c.pointId i)) d - j d))) =
        c.shapeVal i * ∑ d, g.cellSize * A a d * (s.mass (c.pointId i) * (cellCoord g (s.position (c.pointId i)) d - j d)) := by
      rw [Finset.mul_sum]
      exact Finset.sum_congr rfl fun d _ => by ring
    rw [hsw]
    simp only [hr]
    ring
  rw [e, scatterAdd_add, scatterAdd_sum]
  simp only [scatterAdd_scaled, hm.2, mul_zero, Finset.sum_const_zero, add_zero]
  have h1 := (fill_val ker hg hs.filled j hv hj r (fun b => M b * (u a + ∑ d, A a d * ((j d : K) * g.cellSize + g.origin d))) (fun p hp => by
    simp only [hr]
    rw [hu p hp a, hs.mass p hp]
    rw [Finset.sum_congr rfl fun d _ => by rw [place_of_cellCoord hg (s.position p) d]]
    rw [mul_add, mul_add, add_sub_assoc]
    congr 1
    rw [Finset.mul_sum, Finset.mul_sum, ← Finset.sum_sub_distrib]
    exact Finset.sum_congr rfl fun d _ => by ring)).1
  rw [h1, ← Finset.sum_mul]
  simp only [hx]

/-- The nodes that a point in the depth of the block interacts with are nodes of the interior. -/
theorem inner_of_deep (ker : Kernel) {g : GridDomain K dim} (hg : g.cellSize * g.invCellSize = 1) {lo hi : Fin dim → K}
    {pos : Fin n → Fin dim → K} {N : ℕ} (hc : GoodCache (compute ker g pos) N) (hN : N = g.numCells)
    (i : Fin (n * windowSize ker dim)) (h0 : (compute ker g pos).shapeVal i ≠ 0)
    (hp : InBlock g (fun d => lo d + 2 * halfWidth ker) (fun d => hi d - 2 * halfWidth ker) (pos ((compute ker g pos).pointId i))) :
    InnerNode ker g lo hi ((compute ker g pos).nodeHash i) := by
  refine ⟨hN ▸ hc.hash_lt i, fun d => ?_⟩
  have h0 : (computeSingle ker g (pos i.divNat) i.modNat.val).shapeVal ≠ 0 := h0
  have hv : isValid g.gridSize (nodeIdx ker g (pos i.divNat) i.modNat.val) := by
    by_contra h
    exact h0 (by simp only [computeSingle, if_neg h])
  rw [computeSingle_val ker g _ _ hv] at h0
  have hb := basis1_reach ker (Finset.prod_ne_zero_iff.mp h0 d (Finset.mem_univ d))
  have hd := hp d
  have e : (compute ker g pos).nodeHash i = nodeHashOf g (nodeIdx ker g (pos i.divNat) i.modNat.val) :=
    clipHash_of_valid g _ hv
  have hh : g.cellSize ≠ 0 := fun h => by rw [h, zero_mul] at hg; exact zero_ne_one hg
  have ec : cellCoord g (g.positionStack ((compute ker g pos).nodeHash i)) d = (nodeIdx ker g (pos i.divNat) i.modNat.val d : K) := by
    rw [e, positionStack_nodeHashOf g _ hv]
    unfold cellCoord latticePos
    field_simp
    ring
  rw [ec]
  unfold distVec at hb
  rw [basePos_eq_cellCoord hg] at hb
  change _ ≤ cellCoord g (pos i.divNat) d ∧ cellCoord g (pos i.divNat) d < _ at hd
  constructor <;> linarith [hb.1, hb.2, hd.1, hd.2]

theorem set22_entry_zero (P : Prop) [Decidable P] (B : Mat3 K) (i j : Fin 3) (h : B i j = 0) : (if P then set22 B 0 else B) i j = 0 := by
  split_ifs
  · unfold set22
    split_ifs
    · rfl
    · exact h
  · exact h

/-- Gathering at a point all of whose nodes carry the affine velocity `u + A x`, and the same with `w` added after the forces. -/
theorem patch_gather (hdim : dim = 2 ∨ dim = 3) (ker : Kernel) (o e : Fin dim → K) (h : K) (hh : 0 < h) (pad : ℕ) (hpad : 2 ≤ pad)
    (s : MPState K dim n) (hc : GoodCache (compute ker (GridDomain.create o e h pad) s.position) (GridDomain.create o e h pad).numCells)
    (p : Fin n) (hx : InBox o e (s.position p)) (gr : GridArrays K dim) (u w : Fin dim → K) (A : Fin dim → Fin dim → K)
    (hlin : ker = .linear → A = 0 ∨ ∀ d, ∀ z : ℤ, (s.position p d - o d) / h ≠ z)
    (hv : ∀ i, (compute ker (GridDomain.create o e h pad) s.position).pointId i = p →
      (compute ker (GridDomain.create o e h pad) s.position).shapeVal i ≠ 0 → ∀ a,
      nodeVel uslCutoff (gr.mass ((compute ker (GridDomain.create o e h pad) s.position).nodeHash i))
        (gr.moment ((compute ker (GridDomain.create o e h pad) s.position).nodeHash i) a) =
        u a + ∑ k, A a k * (GridDomain.create o e h pad).positionStack ((compute ker (GridDomain.create o e h pad) s.position).nodeHash i) k ∧
      nodeVel uslCutoff (gr.mass ((compute ker (GridDomain.create o e h pad) s.position).nodeHash i))
        (gr.momentNt ((compute ker (GridDomain.create o e h pad) s.position).nodeHash i) a) =
        u a + ∑ k, A a k * (GridDomain.create o e h pad).positionStack ((compute ker (GridDomain.create o e h pad) s.position).nodeHash i) k +
        w a) (hvel : ∀ a, s.velocity p a = u a + ∑ k, A a k * s.position p k) (alpha dt : K) :
    (∀ a, (g2pBody alpha dt (compute ker (GridDomain.create o e h pad) s.position) none gr s).velocity p a = s.velocity p a + w a) ∧
    (∀ a, (g2pBody alpha dt (compute ker (GridDomain.create o e h pad) s.position) none gr s).position p a =
      s.position p a + dt * (s.velocity p a + w a)) ∧
    ∀ i j : Fin 3, (g2pBody alpha dt (compute ker (GridDomain.create o e h pad) s.position) none gr s).L p i j =
      if h : i.val < dim ∧ j.val < dim then -A ⟨j, h.2⟩ ⟨i, h.1⟩ else 0 := by
  set g := GridDomain.create o e h pad with hgd
  set c := compute ker g s.position with hcd
  have hcong : ∀ f f' : Fin (n * windowSize ker dim) → K, (∀ i, c.pointId i = p → f i = f' i) → pointSum c f p = pointSum c f' p := by
    intro f f' hff
    unfold pointSum
    exact Finset.sum_congr rfl fun i hi => hff i (Finset.mem_filter.mp hi).2
  have hnt : ∀ a, pointSum c (fun i => c.shapeVal i * nodeVel uslCutoff (gr.mass (c.nodeHash i)) (gr.momentNt (c.nodeHash i) a)) p =
      s.velocity p a + w a := by
    intro a
    have e1 := affine_field_reproduced ker o e h hh pad hpad s.position p hx (u a + w a) (A a)
    rw [hvel a]
    refine (hcong _ (fun i => c.shapeVal i * (u a + w a + ∑ k, A a k * g.positionStack (c.nodeHash i) k)) fun i hi => ?_).trans
      (e1.trans (by ring))
    by_cases h0 : c.shapeVal i = 0
    · rw [h0, zero_mul, zero_mul]
    · rw [(hv i hi h0 a).2]; ring
  have hdel : ∀ a, pointSum c (fun i => c.shapeVal i * (nodeVel uslCutoff (gr.mass (c.nodeHash i)) (gr.momentNt (c.nodeHash i) a) -
      nodeVel uslCutoff (gr.mass (c.nodeHash i)) (gr.moment (c.nodeHash i) a))) p = w a := by
    intro a
    have e1 : pointSum c (fun i => w a * c.shapeVal i) p = w a := by rw [pointSum_mul, hc.sum_val, mul_one]
    refine (hcong _ _ fun i hi => ?_).trans e1
    by_cases h0 : c.shapeVal i = 0
    · rw [h0, zero_mul, mul_zero]
    · rw [(hv i hi h0 a).2, (hv i hi h0 a).1]; ring
  refine ⟨fun a => ?_, fun a => ?_, fun i j => ?_⟩
  · simp only [g2pBody, ghostBlend, hnt, hdel]
    ring
  · simp only [g2pBody, ghostBlend, hnt]
    ring
  · have hL : (g2pBody alpha dt c none gr s).L p = if dim = 2 then set22 (fun j k => pointSum c (fun i => c.shapeGrad i j *
        -(pad3 (fun a => nodeVel uslCutoff (gr.mass (c.nodeHash i)) (gr.momentNt (c.nodeHash i) a)) k)) p) 0 else
        (fun j k => pointSum c (fun i => c.shapeGrad i j *
        -(pad3 (fun a => nodeVel uslCutoff (gr.mass (c.nodeHash i)) (gr.momentNt (c.nodeHash i) a)) k)) p) := rfl
    rw [hL]
    by_cases hij : i.val < dim ∧ j.val < dim
    · rw [dif_pos hij]
      obtain ⟨h1, h2⟩ := hij
      refine (set22_planar hdim _ ⟨i, h1⟩ ⟨j, h2⟩).trans ?_
      have hz : ∀ q, c.pointId q = p → c.shapeGrad q i * -(pad3 (fun a => nodeVel uslCutoff (gr.mass (c.nodeHash q))
          (gr.momentNt (c.nodeHash q) a)) j) =
          (-1) * (c.shapeGrad q i * (u ⟨j, h2⟩ + w ⟨j, h2⟩ + ∑ k, A ⟨j, h2⟩ k * g.positionStack (c.nodeHash q) k)) := by
        intro q hq
        rw [pad3_lt _ j h2]
        by_cases h0 : c.shapeVal q = 0
        · rw [hc.grad_zero q h0]; ring
        · rw [(hv q hq h0 ⟨j, h2⟩).2]; ring
      refine (hcong _ _ hz).trans ?_
      rw [pointSum_mul, neg_one_mul]
      congr 1
      by_cases hk : ker = .linear ∧ A = 0
      · rw [hk.2]
        simp only [Pi.zero_apply, zero_mul, Finset.sum_const_zero, add_zero]
        have e1 : pointSum c (fun q => (u ⟨j, h2⟩ + w ⟨j, h2⟩) * c.shapeGrad q i) p = 0 := by rw [pointSum_mul, hc.sum_grad, mul_zero]
        exact (hcong _ _ fun q _ => mul_comm _ _).trans e1
      · exact affine_gradient_reproduced hdim ker o e h hh pad hpad s.position p hx
          (fun hl => (hlin hl).resolve_left fun hA => hk ⟨hl, hA⟩) (u ⟨j, h2⟩ + w ⟨j, h2⟩) (A ⟨j, h2⟩) ⟨i, h1⟩
    · rw [dif_neg hij]
      have hz : pointSum c (fun q => c.shapeGrad q i * -(pad3 (fun a => nodeVel uslCutoff (gr.mass (c.nodeHash q))
          (gr.momentNt (c.nodeHash q) a)) j)) p = 0 := by
        unfold pointSum
        refine Finset.sum_eq_zero fun q _ => ?_
        by_cases h1 : i.val < dim
        · rw [pad3_ge _ j fun h2 => hij ⟨h1, h2⟩, neg_zero, mul_zero]
        · rw [fill_grad_plane ker g s.position i h1 q, zero_mul]
      exact set22_entry_zero (dim = 2) _ i j hz

end

section
variable {z : Sz} {K : Type*} [Field K] [LinearOrder K] [IsStrictOrderedRing K] [FloorRing K] {dim : ℕ} {SS LS : Type*}
  {fn : MathFns K} {sv : Solver z K dim SS LS (ForceState K dim)} {m : ℕ}

theorem gridSum_single (cs : List (Coupling z)) (hn : (cs.map (·.p)).Nodup) (c : Coupling z) (hc : c ∈ cs) (hs : c.skip = false)
    (hone : ∀ b ∈ cs, b.skip = false → b.g = c.g → b = c) (f : Coupling z → K) : gridSum cs c.g f = f c := by
  induction cs with
  | nil => simp at hc
  | cons b cs ih =>
    rw [gridSum_cons]
    rw [List.map_cons, List.nodup_cons] at hn
    by_cases hbc : b = c
    · subst hbc
      rw [if_pos ⟨hs, rfl⟩, gridSum_zero cs b.g f, add_zero]
      intro d hd hds hg
      have := hone d (by simp [hd]) hds hg
      exact absurd (List.mem_map.mpr ⟨d, hd, by rw [this]⟩) hn.1
    · rw [if_neg fun h => hbc (hone b (by simp) h.1 h.2), zero_add]
      exact ih hn.2 ((List.mem_cons.mp hc).resolve_left fun h => hbc h.symm) fun d hd => hone d (by simp [hd])

/-- **C129, one step.** A body alone on its grid, with a block that is regularly filled and carries an affine velocity field and a stress
that varies linearly. Every point in the depth of the block is accelerated by `g - ∇·σ / ρ` and moves with its new velocity, whatever
happens elsewhere; the velocity gradient is the one of the field (stored with the sign and transposition of this solver). -/
theorem patch_step (gravs : List (List (Fin z.G) × ℕ)) (hdim : dim = 2 ∨ dim = 3) (hforces : sv.forces = gravityList gravs)
    (hL : ∀ c, (sv.laws c).OnlyStress) {st st' : SimState z K dim SS LS (ForceState K dim)} (h : uslCall fn sv st = .ok st')
    (hr : Regular uslCutoff sv st.world) (c : Coupling z) (hc : c ∈ sv.couplings) (hs : c.skip = false)
    (hone : ∀ b ∈ sv.couplings, b.skip = false → b.g = c.g → b = c) {s : MPState K dim (z.np c.p)}
    (hb : st.world.bodies c.p = .deformable s) {lo hi : Fin dim → K} {cls : Fin (z.np c.p) → Fin m} {ξ : Fin m → Fin dim → K}
    {M V : Fin m → K} {σ : Fin m → Mat3 K} {T : Fin dim → Mat3 K} (hp : Patch (sv.domains c.g) lo hi cls ξ M V σ T s)
    (u : Fin dim → K) (A : Fin dim → Fin dim → K)
    (hu : ∀ p, InBlock (sv.domains c.g) lo hi (s.position p) → ∀ a, s.velocity p a = u a + ∑ k, A a k * s.position p k)
    (hlin : c.ker = .linear → (T = 0 ∨ ∀ b d, ∀ z : ℤ, ξ b d ≠ z) ∧ (A = 0 ∨ ∀ b d, ∀ z : ℤ, ξ b d ≠ z)) :
    ∃ s', st'.world.bodies c.p = .deformable s' ∧
      ∀ p, InBlock (sv.domains c.g) (fun d => lo d + 2 * halfWidth c.ker) (fun d => hi d - 2 * halfWidth c.ker) (s.position p) →
        let acc : Fin dim → K := fun a => gridAccel st.mech.forces gravs c.g a - (∑ b, V b) / (∑ b, M b) * trunc3 dim (stressDiv T) a
        (∀ a, s'.velocity p a = s.velocity p a + st.dt * acc a) ∧
        (∀ a, s'.position p a = s.position p a + st.dt * (s.velocity p a + st.dt * acc a)) ∧
        ∀ i j : Fin 3, s'.L p i j = if h : i.val < dim ∧ j.val < dim then -A ⟨j, h.2⟩ ⟨i, h.1⟩ else 0 := by
  obtain ⟨grids, f, x3, x4, S⟩ := usl_stages gravs hdim hforces h hr
  obtain ⟨s2, hb2, hgc, hm, e2⟩ := S.body c hc hs
  rw [hb] at hb2
  cases hb2
  obtain ⟨o, e, hh, pad, hpos, hpad, hd, hbox⟩ := hr.box c hc hs
  rw [hb] at hbox
  have hg : (sv.domains c.g).cellSize * (sv.domains c.g).invCellSize = 1 := by rw [hd]; exact create_inv o e hh hpos pad
  have hmot := (law_fold hL st.dt sv.couplings x3 x4 S.law).2 c.p
  rw [e2, ← S.world'] at hmot
  cases hb' : st'.world.bodies c.p with
  | rigid r => rw [hb'] at hmot; exact hmot.elim
  | deformable s' =>
    rw [hb'] at hmot
    obtain ⟨-, hmv, hmx, hmL⟩ := hmot
    refine ⟨s', rfl, fun p hdeep => ?_⟩
    rw [hmv, hmx, hmL]
    set g := sv.domains c.g with hgd
    have hR := reach_pos (K := K) c.ker
    have hin : InBlock g lo hi (s.position p) := fun d => ⟨by linarith [(hdeep d).1], by linarith [(hdeep d).2]⟩
    -- nodal values
    have hnode : ∀ i, InnerNode c.ker g lo hi i → (grids c.g).mass i = ∑ b, M b ∧
        (∀ a, (grids c.g).moment i a = (∑ b, M b) * (u a + ∑ k, A a k * g.positionStack i k)) ∧
        ∀ a, (grids c.g).force i a = -(∑ b, V b) * trunc3 dim (stressDiv T) a + (∑ b, M b) * gridAccel st.mech.forces gravs c.g a := by
      intro i hi'
      have hn := patch_node c.ker hg hp u A hu hi'
      have e1 : (grids c.g).mass i = ∑ b, M b := by
        rw [S.mass, gridSum_single sv.couplings hr.single c hc hs hone, hb]
        exact hn.1
      refine ⟨e1, fun a => ?_, fun a => ?_⟩
      · rw [S.moment, gridSum_single sv.couplings hr.single c hc hs hone, hb]
        exact hn.2 a
      · rw [S.force, e1, S.internal c hc hs hone s hb]
        congr 1
        exact patch_force hdim c.ker hg (s := resetBody s) ⟨hp.filled, hp.mass, hp.volume, hp.stress⟩ (fun _ => rfl)
          (fun hl => (hlin hl).1) _ hi' a
    have hnonneg : ∀ j, ∀ b ∈ sv.couplings, b.skip = false → 0 ≤ (st.world.bodies b.p).nodeMass b.ker (sv.domains b.g) j := by
      intro j b hb hbs
      obtain ⟨t, e1, hgc, hm, -⟩ := S.body b hb hbs
      rw [e1]
      exact nodeMass_nonneg hgc t.mass (fun q => (hm q).le) j
    have hvel : ∀ i, (compute c.ker g s.position).pointId i = p → (compute c.ker g s.position).shapeVal i ≠ 0 → ∀ a,
        nodeVel uslCutoff ((grids c.g).mass ((compute c.ker g s.position).nodeHash i))
          ((grids c.g).moment ((compute c.ker g s.position).nodeHash i) a) =
          u a + ∑ k, A a k * g.positionStack ((compute c.ker g s.position).nodeHash i) k ∧
        nodeVel uslCutoff ((grids c.g).mass ((compute c.ker g s.position).nodeHash i))
          ((grids c.g).momentNt ((compute c.ker g s.position).nodeHash i) a) =
          u a + ∑ k, A a k * g.positionStack ((compute c.ker g s.position).nodeHash i) k +
          st.dt * (gridAccel st.mech.forces gravs c.g a - (∑ b, V b) / (∑ b, M b) * trunc3 dim (stressDiv T) a) := by
      intro i hip h0 a
      have hinner := inner_of_deep c.ker hg hgc rfl i h0 (by rw [hip]; exact hdeep)
      obtain ⟨n1, n2, n3⟩ := hnode _ hinner
      set j := (compute c.ker g s.position).nodeHash i with hj
      have hmpos : 0 < (grids c.g).mass j := by
        refine lt_of_le_of_ne (S.mass_nonneg _ _) fun e => h0 ?_
        have hz := gridSum_term_zero sv.couplings c.g _ (hnonneg j) ((S.mass c.g j).symm.trans e.symm) c hc hs rfl
        rw [hb] at hz
        exact val_zero_of_nodeMass hgc s.mass hm j hz i rfl
      have hcut : uslCutoff < (grids c.g).mass j := by
        have := hr.cutoff c.g j
        rw [← S.mass] at this
        exact this hmpos
      have hM : (∑ b, M b) ≠ 0 := by rw [← n1]; exact hmpos.ne'
      unfold nodeVel
      rw [if_pos hcut, if_pos hcut, if_pos hcut, S.momentNt c hc hs]
      simp only [n2, n3]
      rw [n1]
      constructor
      · field_simp
      · field_simp
        ring
    have hgath := patch_gather hdim c.ker o e hh hpos pad hpad (resetBody s) (by rw [← hd]; exact hgc) p (hbox p) (grids c.g) u
      (fun a => st.dt * (gridAccel st.mech.forces gravs c.g a - (∑ b, V b) / (∑ b, M b) * trunc3 dim (stressDiv T) a)) A
      (fun hl => (hlin hl).2.imp id fun hξ d y hy => by
        obtain ⟨k, hk⟩ := hp.filled.lattice p hin
        have h1 := hk d
        rw [← basePos_eq_cellCoord hg, hd, create_basePos o e hh hpos pad] at h1
        rw [show (s.position p d - o d) / hh = y from hy] at h1
        exact hξ (cls p) d (y + pad - k d) (by push_cast; linarith))
      (by rw [← hd]; exact hvel) (fun a => hu p hin a) sv.alpha st.dt
    rw [← hd] at hgath
    exact hgath

/-- The law leaves the stress of every point alone whose velocity gradient is zero. -/
def Spec.HoldsAtRest (l : Law K dim LS) : Prop :=
  ∀ {n : ℕ} (s : MPState K dim n) (ls : LS) (dt : K) (r : MPState K dim n × LS), l.update s ls dt = .ok r →
    ∀ p, s.L p = 0 → r.1.stress p = s.stress p

/-- What the laws leave alone. -/
def KeptByLaw (n : ℕ) (s s' : MPState K dim n) : Prop :=
  s'.mass = s.mass ∧ s'.L = s.L ∧ s'.F = s.F ∧ s'.volume = s.volume ∧ s'.volume0 = s.volume0 ∧ ∀ p, s.L p = 0 → s'.stress p = s.stress p

theorem law_fold_kept (hL : ∀ c, (sv.laws c).OnlyStress) (hrest : ∀ c, HoldsAtRest (sv.laws c))
    (hreset : ∀ c, (sv.laws c).requiresFReset = false) (dt : K) (cs : List (Coupling z))
    (x x' : Ctx z K dim SS LS (ForceState K dim)) (h : foldE (lawCoupling fn sv.laws dt) x cs = .ok x') :
    ∀ p, Body.Rel KeptByLaw (x.world.bodies p) (x'.world.bodies p) := by
  refine foldE_rel (R := fun (x x' : Ctx z K dim SS LS (ForceState K dim)) =>
      ∀ p, Body.Rel KeptByLaw (x.world.bodies p) (x'.world.bodies p))
    (fun _ _ => Body.Rel.refl (fun _ _ => ⟨rfl, rfl, rfl, rfl, rfl, fun _ _ => rfl⟩) _)
    (fun a b c h1 h2 p => (h1 p).trans (R := KeptByLaw)
      (fun n a b c h1 h2 => ⟨h2.1.trans h1.1, h2.2.1.trans h1.2.1, h2.2.2.1.trans h1.2.2.1,
        h2.2.2.2.1.trans h1.2.2.2.1, h2.2.2.2.2.1.trans h1.2.2.2.2.1,
        fun p hp => (h2.2.2.2.2.2 p (by rw [h1.2.1]; exact hp)).trans (h1.2.2.2.2.2 p hp)⟩) (h2 p)) cs x x' ?_ h
  intro c _ y y' hy
  cases hs : c.skip with
  | true =>
    rw [lawCoupling_skip hs hy]
    exact fun _ => Body.Rel.refl (fun _ _ => ⟨rfl, rfl, rfl, rfl, rfl, fun _ _ => rfl⟩) _
  | false =>
    obtain ⟨s, r, hb, hr, rfl⟩ := lawCoupling_ok hs hy
    refine rel_setBody (fun _ _ => ⟨rfl, rfl, rfl, rfl, rfl, fun _ _ => rfl⟩) y c.p _ ?_
    rw [hb]
    have e := hL c.c s _ dt r hr
    have e2 := hrest c.c s _ dt r hr
    change KeptByLaw _ s (removeShear fn _ r.1)
    rw [hreset]
    change KeptByLaw _ s r.1
    rw [e]
    exact ⟨rfl, rfl, rfl, rfl, rfl, e2⟩

/-- What a step leaves alone at the points without velocity gradient. -/
theorem usl_step_kept (gravs : List (List (Fin z.G) × ℕ)) (hdim : dim = 2 ∨ dim = 3) (hforces : sv.forces = gravityList gravs)
    (hL : ∀ c, (sv.laws c).OnlyStress) (hrest : ∀ c, HoldsAtRest (sv.laws c)) (hreset : ∀ c, (sv.laws c).requiresFReset = false)
    {st st' : SimState z K dim SS LS (ForceState K dim)} (h : uslCall fn sv st = .ok st')
    (hr : Regular uslCutoff sv st.world) (c : Coupling z) (hc : c ∈ sv.couplings) (hs : c.skip = false) {s : MPState K dim (z.np c.p)}
    (hb : st.world.bodies c.p = .deformable s) {s' : MPState K dim (z.np c.p)} (hb' : st'.world.bodies c.p = .deformable s') :
    s'.mass = s.mass ∧ s'.volume0 = s.volume0 ∧ ∀ p, s'.L p = 0 → s'.stress p = s.stress p ∧ ((dim = 2 → s.F p 2 2 = 1) →
      s'.F p = s.F p ∧ s'.volume p = (s.F p).det * s.volume0 p) := by
  obtain ⟨grids, f, x3, x4, S⟩ := usl_stages gravs hdim hforces h hr
  obtain ⟨s2, hb2, -, -, e2⟩ := S.body c hc hs
  rw [hb] at hb2
  cases hb2
  have hk := law_fold_kept hL hrest hreset st.dt sv.couplings x3 x4 S.law c.p
  rw [e2, ← S.world', hb'] at hk
  set t := g2pBody sv.alpha st.dt (compute c.ker (sv.domains c.g) s.position) none (grids c.g) (resetBody s) with ht
  obtain ⟨k1, k2, k3, k4, k5, k6⟩ := hk
  refine ⟨k1, k5, fun p hp => ⟨k6 p (by rw [← k2]; exact hp), fun hpl => ?_⟩⟩
  have hF : t.F p = s.F p := by
    have : t.F p = if dim = 2 then set22 ((1 - st.dt • t.L p) * s.F p) 1 else (1 - st.dt • t.L p) * s.F p := rfl
    rw [this, ← k2, hp, smul_zero, sub_zero, one_mul]
    split_ifs with h2
    · exact set22_self (hpl h2)
    · rfl
  refine ⟨by rw [k3]; exact hF, ?_⟩
  rw [k4]
  have : t.volume p = (t.F p).det * s.volume0 p := rfl
  rw [this, hF]

/-- A regularly filled block that moves with the velocity `u`, with consistent volumes. -/
structure Spec.MovingPatch {n : ℕ} (g : GridDomain K dim) (lo hi : Fin dim → K) (cls : Fin n → Fin m) (ξ : Fin m → Fin dim → K) (M V : Fin m → K)
    (σ : Fin m → Mat3 K) (T : Fin dim → Mat3 K) (u : Fin dim → K) (s : MPState K dim n) : Prop extends
    Patch g lo hi cls ξ M V σ T s where
  velocity : ∀ p, InBlock g lo hi (s.position p) → s.velocity p = u
  plane : dim = 2 → ∀ p, InBlock g lo hi (s.position p) → s.F p 2 2 = 1
  consistent : ∀ p, InBlock g lo hi (s.position p) → s.volume p = (s.F p).det * s.volume0 p

/-- **C129, the block after a step.** If no point moves by more than `w` cells, the block without a margin of twice the reach of the kernel
and `w` cells is again a regularly filled block. -/
theorem patch_block_step (gravs : List (List (Fin z.G) × ℕ)) (hdim : dim = 2 ∨ dim = 3) (hforces : sv.forces = gravityList gravs)
    (hL : ∀ c, (sv.laws c).OnlyStress) (hrest : ∀ c, HoldsAtRest (sv.laws c)) (hreset : ∀ c, (sv.laws c).requiresFReset = false)
    {st st' : SimState z K dim SS LS (ForceState K dim)} (h : uslCall fn sv st = .ok st')
    (hr : Regular uslCutoff sv st.world) (c : Coupling z) (hc : c ∈ sv.couplings) (hs : c.skip = false)
    (hone : ∀ b ∈ sv.couplings, b.skip = false → b.g = c.g → b = c) {s s' : MPState K dim (z.np c.p)}
    (hb : st.world.bodies c.p = .deformable s) (hb' : st'.world.bodies c.p = .deformable s')
    {lo hi : Fin dim → K} {cls : Fin (z.np c.p) → Fin m} {ξ : Fin m → Fin dim → K}
    {M V : Fin m → K} {σ : Fin m → Mat3 K} {T : Fin dim → Mat3 K} {u : Fin dim → K}
    (hp : MovingPatch (sv.domains c.g) lo hi cls ξ M V σ T u s)
    (hlin : c.ker = .linear → T = 0 ∨ ∀ b d, ∀ z : ℤ, ξ b d ≠ z) {w : K}
    (hw : ∀ p d, |s'.position p d - s.position p d| ≤ w * (sv.domains c.g).cellSize) {acc : Fin dim → K}
    (hacc : ∀ a, acc a = gridAccel st.mech.forces gravs c.g a - (∑ b, V b) / (∑ b, M b) * trunc3 dim (stressDiv T) a)
    (hwu : ∀ d, |st.dt * (u d + st.dt * acc d)| ≤ w * (sv.domains c.g).cellSize) :
    MovingPatch (sv.domains c.g) (fun d => lo d + (2 * halfWidth c.ker + w)) (fun d => hi d - (2 * halfWidth c.ker + w)) cls
      (fun b d => ξ b d + st.dt * (u d + st.dt * acc d) / (sv.domains c.g).cellSize) M V
      (fun b => σ b - ∑ d, (st.dt * (u d + st.dt * acc d)) • T d) T (fun d => u d + st.dt * acc d) s' ∧
    ∀ p, InBlock (sv.domains c.g) (fun d => lo d + (2 * halfWidth c.ker + w)) (fun d => hi d - (2 * halfWidth c.ker + w)) (s'.position p) →
      InBlock (sv.domains c.g) lo hi (s.position p) ∧ (∀ d, s'.position p d = s.position p d + st.dt * (u d + st.dt * acc d)) ∧
      s'.stress p = s.stress p ∧ s'.L p = 0 := by
  obtain ⟨s2, hb2, hstep⟩ := patch_step gravs hdim hforces hL h hr c hc hs hone hb hp.toPatch u 0
    (fun p hin a => by rw [hp.velocity p hin]; simp) (fun hl => ⟨hlin hl, .inl rfl⟩)
  rw [hb'] at hb2
  cases hb2
  obtain ⟨k1, k2, k3⟩ := usl_step_kept gravs hdim hforces hL hrest hreset h hr c hc hs hb hb'
  obtain ⟨o, e, hh, pad, hpos, hpad, hd, hbox⟩ := hr.box c hc hs
  set g := sv.domains c.g with hgd
  have hcell : 0 < g.cellSize := by rw [hd]; exact hpos
  have hR := reach_pos (K := K) c.ker
  have hcc : ∀ x y : Fin dim → K, ∀ d, cellCoord g x d = cellCoord g y d + (x d - y d) / g.cellSize := by
    intro x y d
    unfold cellCoord
    rw [← add_div]
    congr 1
    ring
  have habs : ∀ x : K, |x| ≤ w * g.cellSize → -w ≤ x / g.cellSize ∧ x / g.cellSize ≤ w := by
    intro x hx
    rw [le_div_iff₀ hcell, div_le_iff₀ hcell]
    have := abs_le.mp hx
    exact ⟨by linarith [this.1], this.2⟩
  have hw0 : ∀ d : Fin dim, 0 ≤ w := fun d => by
    have := habs _ (hwu d)
    linarith [this.1, this.2]
  have hdeep : ∀ p, InBlock g (fun d => lo d + (2 * halfWidth c.ker + w)) (fun d => hi d - (2 * halfWidth c.ker + w)) (s'.position p) →
      InBlock g (fun d => lo d + 2 * halfWidth c.ker) (fun d => hi d - 2 * halfWidth c.ker) (s.position p) := by
    intro p hin d
    have h1 := hin d
    have h2 := habs _ (hw p d)
    rw [hcc (s'.position p) (s.position p) d] at h1
    constructor <;> linarith [h1.1, h1.2, h2.1, h2.2]
  have hinn : ∀ p, InBlock g (fun d => lo d + 2 * halfWidth c.ker) (fun d => hi d - 2 * halfWidth c.ker) (s.position p) →
      InBlock g lo hi (s.position p) := fun p hin d => ⟨by linarith [(hin d).1], by linarith [(hin d).2]⟩
  have hmove : ∀ p, InBlock g (fun d => lo d + 2 * halfWidth c.ker) (fun d => hi d - 2 * halfWidth c.ker) (s.position p) →
      (∀ d, s'.position p d = s.position p d + st.dt * (u d + st.dt * acc d)) ∧ (∀ d, s'.velocity p d = u d + st.dt * acc d) ∧ s'.L p = 0 := by
    intro p hin
    obtain ⟨h1, h2, h3⟩ := hstep p hin
    have hv := hp.velocity p (hinn p hin)
    refine ⟨fun d => ?_, fun d => ?_, ?_⟩
    · rw [h2 d, hv, hacc d]
    · rw [h1 d, hv, hacc d]
    · funext i j
      rw [h3 i j]
      split_ifs <;> simp
  have hcoord : ∀ p, InBlock g (fun d => lo d + 2 * halfWidth c.ker) (fun d => hi d - 2 * halfWidth c.ker) (s.position p) → ∀ d,
      cellCoord g (s'.position p) d = cellCoord g (s.position p) d + st.dt * (u d + st.dt * acc d) / g.cellSize := by
    intro p hin d
    rw [hcc (s'.position p) (s.position p) d, (hmove p hin).1 d, add_sub_cancel_left]
  refine ⟨⟨⟨⟨?_, ?_⟩, ?_, ?_, ?_⟩, ?_, ?_, ?_⟩, ?_⟩
  · intro p hin
    have hq := hdeep p hin
    obtain ⟨k, hk⟩ := hp.filled.lattice p (hinn p hq)
    refine ⟨k, fun d => ?_⟩
    rw [hcoord p hq d, hk d]
    ring
  · intro b k hbk
    have hold : ∀ d, lo d + 2 * halfWidth c.ker ≤ ξ b d + k d ∧ ξ b d + k d < hi d - 2 * halfWidth c.ker := by
      intro d
      have h1 := hbk d
      have h2 := habs _ (hwu d)
      constructor <;> linarith [h1.1, h1.2, h2.1, h2.2]
    obtain ⟨p, ⟨hp1, hp2⟩, huniq⟩ := hp.filled.once b k fun d => ⟨by linarith [(hold d).1], by linarith [(hold d).2]⟩
    have hq : InBlock g (fun d => lo d + 2 * halfWidth c.ker) (fun d => hi d - 2 * halfWidth c.ker) (s.position p) := fun d => by
      rw [hp2 d]; exact hold d
    refine ⟨p, ⟨hp1, fun d => ?_⟩, ?_⟩
    · rw [hcoord p hq d, hp2 d]
      ring
    · rintro q ⟨hq1, hq2⟩
      have hqd := hdeep q fun d => by rw [hq2 d]; exact hbk d
      refine huniq q ⟨hq1, fun d => ?_⟩
      have := hq2 d
      rw [hcoord q hqd d] at this
      linarith
  · intro p hin
    rw [k1]
    exact hp.mass p (hinn p (hdeep p hin))
  · intro p hin
    have hq := hdeep p hin
    rw [((k3 p (hmove p hq).2.2).2 fun h2 => hp.plane h2 p (hinn p hq)).2, ← hp.consistent p (hinn p hq)]
    exact hp.volume p (hinn p hq)
  · intro p hin
    have hq := hdeep p hin
    rw [(k3 p (hmove p hq).2.2).1, hp.stress p (hinn p hq)]
    have e : ∑ d, s'.position p d • T d = ∑ d, s.position p d • T d + ∑ d, (st.dt * (u d + st.dt * acc d)) • T d := by
      rw [← Finset.sum_add_distrib]
      exact Finset.sum_congr rfl fun d _ => by rw [(hmove p hq).1 d, add_smul]
    rw [e]
    abel
  · intro p hin
    funext d
    exact (hmove p (hdeep p hin)).2.1 d
  · intro h2 p hin
    have hq := hdeep p hin
    rw [((k3 p (hmove p hq).2.2).2 fun h2 => hp.plane h2 p (hinn p hq)).1]
    exact hp.plane h2 p (hinn p hq)
  · intro p hin
    have hq := hdeep p hin
    obtain ⟨f1, f2⟩ := (k3 p (hmove p hq).2.2).2 fun h2 => hp.plane h2 p (hinn p hq)
    rw [f2, f1, k2]
  · intro p hin
    have hq := hdeep p hin
    exact ⟨hinn p hq, (hmove p hq).1, (k3 p (hmove p hq).2.2).1, (hmove p hq).2.2⟩

/-- The way of a body that starts with velocity `u` and gains `dt acc` in every one of `n` steps before it moves. -/
def Spec.fallWay (dt : K) (u acc : Fin dim → K) (n : ℕ) (d : Fin dim) : K := n * dt * u d + dt ^ 2 * (n * (n + 1) / 2) * acc d

theorem fallWay_succ (dt : K) (u acc : Fin dim → K) (n : ℕ) (d : Fin dim) :
    fallWay dt u acc (n + 1) d = fallWay dt u acc n d + dt * ((u d + n * dt * acc d) + dt * acc d) := by
  unfold fallWay
  push_cast
  ring

/-- **C129, runs.** After `n` steps the block, without a margin that grows by twice the reach of the kernel and `w` cells per step, has
moved as one: every point in it has its stress as at the start, the velocity `u + n dt acc` and no velocity gradient, and is displaced by
`n dt u + dt² n (n+1)/2 acc`. -/
theorem patch_run_partial (gravs : List (List (Fin z.G) × ℕ)) (hdim : dim = 2 ∨ dim = 3) (hforces : sv.forces = gravityList gravs)
    (hL : ∀ c, (sv.laws c).OnlyStress) (hrest : ∀ c, HoldsAtRest (sv.laws c)) (hreset : ∀ c, (sv.laws c).requiresFReset = false)
    (n : ℕ) {st st' : SimState z K dim SS LS (ForceState K dim)} (h : runSteps (uslCall fn sv) n st = .ok st')
    (hr : AlongRun fn sv n st (Regular uslCutoff sv)) (c : Coupling z) (hc : c ∈ sv.couplings) (hs : c.skip = false)
    (hone : ∀ b ∈ sv.couplings, b.skip = false → b.g = c.g → b = c) {s : MPState K dim (z.np c.p)}
    (hb : st.world.bodies c.p = .deformable s)
    {lo hi : Fin dim → K} {cls : Fin (z.np c.p) → Fin m} {ξ : Fin m → Fin dim → K}
    {M V : Fin m → K} {σ : Fin m → Mat3 K} {T : Fin dim → Mat3 K} {u : Fin dim → K}
    (hp : MovingPatch (sv.domains c.g) lo hi cls ξ M V σ T u s) {acc : Fin dim → K}
    (hacc : ∀ a, acc a = gridAccel st.mech.forces gravs c.g a - (∑ b, V b) / (∑ b, M b) * trunc3 dim (stressDiv T) a)
    (hlin : c.ker = .linear → T = 0 ∨ ∀ k < n, ∀ b d, ∀ z : ℤ, ξ b d + fallWay st.dt u acc k d / (sv.domains c.g).cellSize ≠ z) {w : K}
    (hw : ∀ k < n, ∀ st1 st2, runSteps (uslCall fn sv) k st = .ok st1 → uslCall fn sv st1 = .ok st2 →
      ∀ s1 s2 : MPState K dim (z.np c.p), st1.world.bodies c.p = .deformable s1 → st2.world.bodies c.p = .deformable s2 →
        ∀ p d, |s2.position p d - s1.position p d| ≤ w * (sv.domains c.g).cellSize)
    (hwu : ∀ k < n, ∀ d, |st.dt * ((u d + k * st.dt * acc d) + st.dt * acc d)| ≤ w * (sv.domains c.g).cellSize) :
    ∃ s' : MPState K dim (z.np c.p), st'.world.bodies c.p = .deformable s' ∧
      MovingPatch (sv.domains c.g) (fun d => lo d + n * (2 * halfWidth c.ker + w)) (fun d => hi d - n * (2 * halfWidth c.ker + w)) cls
        (fun b d => ξ b d + fallWay st.dt u acc n d / (sv.domains c.g).cellSize) M V
        (fun b => σ b - ∑ d, fallWay st.dt u acc n d • T d) T (fun d => u d + n * st.dt * acc d) s' ∧
      ∀ p, InBlock (sv.domains c.g) (fun d => lo d + n * (2 * halfWidth c.ker + w)) (fun d => hi d - n * (2 * halfWidth c.ker + w)) (s'.position p) →
        (∀ d, s'.position p d = s.position p d + fallWay st.dt u acc n d) ∧ s'.stress p = s.stress p ∧ (n ≠ 0 → s'.L p = 0) := by
  induction n generalizing st' with
  | zero =>
    have : st = st' := by simpa [runSteps] using h
    subst this
    refine ⟨s, hb, ?_, fun p _ => ⟨fun d => by simp [fallWay], rfl, fun h => absurd rfl h⟩⟩
    simpa [fallWay] using hp
  | succ n ih =>
    obtain ⟨st1, h1, h2⟩ := runSteps_succ_ok.mp h
    obtain ⟨s1, hb1, hp1, hq1⟩ := ih h1 (fun i hi => hr i (by omega)) (fun hl => (hlin hl).imp id fun h k hk => h k (by omega))
      (fun k hk => hw k (by omega)) (fun k hk => hwu k (by omega))
    obtain ⟨e1, e2, -⟩ := usl_run_momentum gravs hdim hforces hL n h1 (fun i hi => hr i (by omega))
    have hreg := hr n (by omega) st1 h1
    obtain ⟨s2, hb2, -⟩ := patch_step gravs hdim hforces hL h2 hreg c hc hs hone hb1 hp1.toPatch _ 0
      (fun p hin a => by rw [hp1.velocity p hin]; simp; rfl) (fun hl => ⟨(hlin hl).imp id fun h => h n (by omega), .inl rfl⟩)
    obtain ⟨q1, q2⟩ := patch_block_step gravs hdim hforces hL hrest hreset h2 hreg c hc hs hone hb1 hb2 hp1
      (fun hl => (hlin hl).imp id fun h => h n (by omega)) (hw n (by omega) st1 st' h1 h2 s1 s2 hb1 hb2) (acc := acc)
      (fun a => by rw [e1]; exact hacc a) (by rw [e2]; exact hwu n (by omega))
    rw [e2] at q1 q2
    have elo : (fun d => lo d + ((n + 1 : ℕ) : K) * (2 * halfWidth c.ker + w)) =
        fun d => lo d + n * (2 * halfWidth c.ker + w) + (2 * halfWidth c.ker + w) := by
      funext d; push_cast; ring
    have ehi : (fun d => hi d - ((n + 1 : ℕ) : K) * (2 * halfWidth c.ker + w)) =
        fun d => hi d - n * (2 * halfWidth c.ker + w) - (2 * halfWidth c.ker + w) := by
      funext d; push_cast; ring
    have eξ : (fun b d => ξ b d + fallWay st.dt u acc (n + 1) d / (sv.domains c.g).cellSize) = fun b d =>
        ξ b d + fallWay st.dt u acc n d / (sv.domains c.g).cellSize +
          st.dt * (u d + n * st.dt * acc d + st.dt * acc d) / (sv.domains c.g).cellSize := by
      funext b d
      rw [fallWay_succ, add_div]
      ring
    have eσ : (fun b => σ b - ∑ d, fallWay st.dt u acc (n + 1) d • T d) = fun b =>
        σ b - ∑ d, fallWay st.dt u acc n d • T d - ∑ d, (st.dt * (u d + n * st.dt * acc d + st.dt * acc d)) • T d := by
      funext b
      rw [sub_sub, ← Finset.sum_add_distrib]
      congr 1
      exact Finset.sum_congr rfl fun d _ => by rw [fallWay_succ, add_smul]
    have eu : (fun d => u d + ((n + 1 : ℕ) : K) * st.dt * acc d) = fun d => u d + n * st.dt * acc d + st.dt * acc d := by
      funext d; push_cast; ring
    refine ⟨s2, hb2, ?_, fun p hin => ?_⟩
    · rw [elo, ehi, eξ, eσ, eu]
      exact q1
    · rw [elo, ehi] at hin
      obtain ⟨i1, i2, i3, i4⟩ := q2 p hin
      obtain ⟨j1, j2, -⟩ := hq1 p i1
      exact ⟨fun d => by rw [i2 d, j1 d, fallWay_succ]; ring, i3.trans j2, fun _ => i4⟩

/-- **C129, equilibrium.** A resting block whose stress carries its weight, `∑V div σ = ∑M g`, stays where it is, as far as the disturbance of
its rim has not reached it. -/
theorem patch_equilibrium_partial (gravs : List (List (Fin z.G) × ℕ)) (hdim : dim = 2 ∨ dim = 3) (hforces : sv.forces = gravityList gravs)
    (hL : ∀ c, (sv.laws c).OnlyStress) (hrest : ∀ c, HoldsAtRest (sv.laws c)) (hreset : ∀ c, (sv.laws c).requiresFReset = false)
    (n : ℕ) {st st' : SimState z K dim SS LS (ForceState K dim)} (h : runSteps (uslCall fn sv) n st = .ok st')
    (hr : AlongRun fn sv n st (Regular uslCutoff sv)) (c : Coupling z) (hc : c ∈ sv.couplings) (hs : c.skip = false)
    (hone : ∀ b ∈ sv.couplings, b.skip = false → b.g = c.g → b = c) {s : MPState K dim (z.np c.p)}
    (hb : st.world.bodies c.p = .deformable s)
    {lo hi : Fin dim → K} {cls : Fin (z.np c.p) → Fin m} {ξ : Fin m → Fin dim → K}
    {M V : Fin m → K} {σ : Fin m → Mat3 K} {T : Fin dim → Mat3 K}
    (hp : MovingPatch (sv.domains c.g) lo hi cls ξ M V σ T 0 s) (hM : ∑ b, M b ≠ 0)
    (hbal : ∀ a, (∑ b, V b) * trunc3 dim (stressDiv T) a = (∑ b, M b) * gridAccel st.mech.forces gravs c.g a)
    (hlin : c.ker = .linear → T = 0 ∨ ∀ b d, ∀ z : ℤ, ξ b d ≠ z) {w : K} (hw0 : 0 ≤ w)
    (hw : ∀ k < n, ∀ st1 st2, runSteps (uslCall fn sv) k st = .ok st1 → uslCall fn sv st1 = .ok st2 →
      ∀ s1 s2 : MPState K dim (z.np c.p), st1.world.bodies c.p = .deformable s1 → st2.world.bodies c.p = .deformable s2 →
        ∀ p d, |s2.position p d - s1.position p d| ≤ w * (sv.domains c.g).cellSize) :
    ∃ s' : MPState K dim (z.np c.p), st'.world.bodies c.p = .deformable s' ∧
      ∀ p, InBlock (sv.domains c.g) (fun d => lo d + n * (2 * halfWidth c.ker + w)) (fun d => hi d - n * (2 * halfWidth c.ker + w)) (s'.position p) →
        s'.position p = s.position p ∧ s'.velocity p = 0 ∧ s'.stress p = s.stress p ∧ (n ≠ 0 → s'.L p = 0) := by
  have hacc : ∀ a, (0 : Fin dim → K) a = gridAccel st.mech.forces gravs c.g a - (∑ b, V b) / (∑ b, M b) * trunc3 dim (stressDiv T) a := by
    intro a
    rw [div_mul_eq_mul_div, hbal a, mul_div_cancel_left₀ _ hM]
    simp
  have hway : ∀ k d, fallWay st.dt (0 : Fin dim → K) 0 k d = 0 := fun k d => by simp [fallWay]
  have hcell : 0 ≤ (sv.domains c.g).cellSize ∨ n = 0 := by
    rcases Nat.eq_zero_or_pos n with h0 | h0
    · exact .inr h0
    · obtain ⟨o, e, hh, pad, hpos, hpad, hd, hbox⟩ := (hr 0 h0 st rfl).box c hc hs
      left
      rw [hd]
      exact hpos.le
  obtain ⟨s', hb', q1, q2⟩ := patch_run_partial gravs hdim hforces hL hrest hreset n h hr c hc hs hone hb hp hacc
    (fun hl => (hlin hl).imp id fun h k _ b d z => by rw [hway]; simpa using h b d z) hw (fun k hk d => by
      rcases hcell with h0 | h0
      · simpa using mul_nonneg hw0 h0
      · omega)
  refine ⟨s', hb', fun p hin => ?_⟩
  obtain ⟨r1, r2, r3⟩ := q2 p hin
  refine ⟨?_, ?_, r2, r3⟩
  · funext d
    rw [r1 d, hway, add_zero]
  · rw [q1.velocity p hin]
    funext d
    simp

/-- The linear elastic law holds the stress of a point at rest. -/
theorem elastic_holdsAtRest (E nu : K) (reset : Bool) : HoldsAtRest (elasticLaw E nu reset : Law K dim (LawState K)) := by
  intro n s ls dt r hr p hL
  have := Except.ok.inj hr
  subst this
  simp only [hL, elasticStress]
  funext i j
  simp [isoT]

end
end Hydrax
