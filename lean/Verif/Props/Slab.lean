import Verif.Lemmas.SlabSum
import Verif.Props.PatchTest

/-!
# A plane simulation is a slice of a simulation in space (C159)
-/

set_option linter.unusedSectionVars false

namespace Hydrax
open Spec

section
variable {K : Type*} [Field K] [LinearOrder K] [IsStrictOrderedRing K] [FloorRing K] {n m : ℕ}
  {g2 : GridDomain K 2} {g3 : GridDomain K 3} {ker : Kernel} {lo hi τ : K}

/-- The point lies between the layers `lo` and `hi` (in cells along the third axis). -/
abbrev Spec.InLayers (g3 : GridDomain K 3) (lo hi : K) (x : Fin 3 → K) : Prop := InBlock (zGrid g3) (fun _ => lo) (fun _ => hi) (fun _ => x 2)

/-- Between the layers `lo` and `hi`, the body of space is the body of the plane, repeated in every layer of cells and `τ` thick: above
point `i` of the plane there is one point at the heights `ξ i + k`, with the same place and velocity in the plane, the same stress and the
same deformation. -/
structure Spec.Slab (g3 : GridDomain K 3) (lo hi τ : K) (of : Fin m → Fin n) (ξ : Fin n → K) (s2 : MPState K 2 n) (s3 : MPState K 3 m) : Prop where
  layers : Filled (zGrid g3) (fun _ => lo) (fun _ => hi) of (fun i _ => ξ i) (fun q _ => s3.position q 2)
  place : ∀ q, InLayers g3 lo hi (s3.position q) → ∀ d : Fin 2, s3.position q d.castSucc = s2.position (of q) d
  velocity : ∀ q, InLayers g3 lo hi (s3.position q) → (∀ a : Fin 2, s3.velocity q a.castSucc = s2.velocity (of q) a) ∧ s3.velocity q 2 = 0
  load : ∀ q, InLayers g3 lo hi (s3.position q) → (∀ a : Fin 2, s3.force q a.castSucc = τ * s2.force (of q) a) ∧ s3.force q 2 = 0
  mass : ∀ q, InLayers g3 lo hi (s3.position q) → s3.mass q = τ * s2.mass (of q)
  volume : ∀ q, InLayers g3 lo hi (s3.position q) → s3.volume q = τ * s2.volume (of q)
  volume0 : ∀ q, InLayers g3 lo hi (s3.position q) → s3.volume0 q = τ * s2.volume0 (of q)
  stress : ∀ q, InLayers g3 lo hi (s3.position q) → s3.stress q = s2.stress (of q)
  F : ∀ q, InLayers g3 lo hi (s3.position q) → s3.F q = s2.F (of q)
  shear : ∀ i, s2.stress i 2 0 = 0 ∧ s2.stress i 2 1 = 0
  planar : ∀ i, s2.F i 2 2 = 1

/-- The layer of nodes `k` and the kernels that cover it lie between `lo` and `hi`. -/
def Spec.InnerLayer (ker : Kernel) (lo hi : K) (k : ℤ) : Prop := lo + halfWidth ker ≤ k ∧ (k : K) + halfWidth ker ≤ hi

/-- The arrays of the inner layers of nodes of space are `τ` times the arrays of the plane, with nothing along the third axis. -/
structure Spec.SlabGrid (g2 : GridDomain K 2) (g3 : GridDomain K 3) (ker : Kernel) (lo hi τ : K) (A : GridArrays K 2) (B : GridArrays K 3) : Prop where
  mass : ∀ j, isValid g2.gridSize j → ∀ k, k ∈ Finset.Ico 0 (g3.gridSize 2 : ℤ) → InnerLayer ker lo hi k →
    B.mass (nodeHashOf g3 (nodeAbove j k)) = τ * A.mass (nodeHashOf g2 j)
  moment : ∀ j, isValid g2.gridSize j → ∀ k, k ∈ Finset.Ico 0 (g3.gridSize 2 : ℤ) → InnerLayer ker lo hi k →
    (∀ a : Fin 2, B.moment (nodeHashOf g3 (nodeAbove j k)) a.castSucc = τ * A.moment (nodeHashOf g2 j) a) ∧
    B.moment (nodeHashOf g3 (nodeAbove j k)) 2 = 0
  momentNt : ∀ j, isValid g2.gridSize j → ∀ k, k ∈ Finset.Ico 0 (g3.gridSize 2 : ℤ) → InnerLayer ker lo hi k →
    (∀ a : Fin 2, B.momentNt (nodeHashOf g3 (nodeAbove j k)) a.castSucc = τ * A.momentNt (nodeHashOf g2 j) a) ∧
    B.momentNt (nodeHashOf g3 (nodeAbove j k)) 2 = 0
  force : ∀ j, isValid g2.gridSize j → ∀ k, k ∈ Finset.Ico 0 (g3.gridSize 2 : ℤ) → InnerLayer ker lo hi k →
    (∀ a : Fin 2, B.force (nodeHashOf g3 (nodeAbove j k)) a.castSucc = τ * A.force (nodeHashOf g2 j) a) ∧
    B.force (nodeHashOf g3 (nodeAbove j k)) 2 = 0

theorem p2g_force_parts {dim : ℕ} (hd : dim ≤ 3) (g : GridDomain K dim) (s : MPState K dim n) (gr : GridArrays K dim) (i : ℕ) (a : Fin dim) :
    (p2gBody (compute ker g s.position) s gr).force i a =
      (∑ b : Fin 3, scatterAdd (compute ker g s.position).nodeHash (fun i => (compute ker g s.position).shapeGrad i b *
        (s.volume ((compute ker g s.position).pointId i) * s.stress ((compute ker g s.position).pointId i) ⟨a, by omega⟩ b)) i) +
      scatterAdd (compute ker g s.position).nodeHash (fun i => (compute ker g s.position).shapeVal i *
        s.force ((compute ker g s.position).pointId i) a) i := by
  have ha : a.val < 3 := by omega
  set c := compute ker g s.position with hcd
  have hone : ∀ i, c.cpicMask i = 1 := fun _ => rfl
  rw [← scatterAdd_sum, ← scatterAdd_add]
  simp only [p2gBody, hone, mul_one, one_mul, zero_add]
  congr 1
  funext i
  congr 1
  simp only [internTerm, trunc3, dif_pos ha, Finset.mul_sum]
  exact Finset.sum_congr rfl fun k _ => by ring

/-- **C159, transfer to the grid.** The inner layers of nodes collect `τ` times the mass, momentum and force of the nodes of the plane, and
no momentum and no force along the third axis. -/
theorem slab_p2g (hg : GridOver g2 g3) {of : Fin m → Fin n} {ξ : Fin n → K} {s2 : MPState K 2 n} {s3 : MPState K 3 m}
    (hs : Slab g3 lo hi τ of ξ s2 s3) {A : GridArrays K 2} {B : GridArrays K 3} (hA : SlabGrid g2 g3 ker lo hi τ A B) :
    SlabGrid g2 g3 ker lo hi τ (p2gBody (compute ker g2 s2.position) s2 A) (p2gBody (compute ker g3 s3.position) s3 B) := by
  have hone2 : ∀ i, (compute ker g2 s2.position).cpicMask i = 1 := fun _ => rfl
  have hone3 : ∀ i, (compute ker g3 s3.position).cpicMask i = 1 := fun _ => rfl
  have col : ∀ {j : Fin 2 → ℤ} (_ : isValid g2.gridSize j) {k : ℤ} (_ : k ∈ Finset.Ico 0 (g3.gridSize 2 : ℤ)) (_ : InnerLayer ker lo hi k)
      (r3 : Fin m → K) (r2 : Fin n → K) (_ : ∀ q, InLayers g3 lo hi (s3.position q) → r3 q = r2 (of q)), _ := fun hj _ hk hi r3 r2 hr =>
    slab_collect hg ker hs.layers hs.place hj hk hi.1 hi.2 r3 r2 hr
  have scal : ∀ {w : ℕ} (c : InteractionCache K n w) (f : Fin (n * w) → K) (r : Fin n → K) (i : ℕ),
      scatterAdd c.nodeHash (fun i => f i * (τ * r (c.pointId i))) i = τ * scatterAdd c.nodeHash (fun i => f i * r (c.pointId i)) i := by
    intro w c f r i
    rw [← scatterAdd_scaled]
    congr 1
    funext i
    ring
  refine ⟨fun j hj k hk hl => ?_, fun j hj k hk hl => ⟨fun a => ?_, ?_⟩, hA.momentNt, fun j hj k hk hl => ⟨fun a => ?_, ?_⟩⟩
  · simp only [p2gBody, hone2, hone3, mul_one]
    rw [hA.mass j hj k hk hl, (col hj hk hl s3.mass (fun i => τ * s2.mass i) hs.mass).1, scal, mul_add]
  · simp only [p2gBody, hone2, hone3, mul_one, mul_assoc]
    rw [(hA.moment j hj k hk hl).1 a, (col hj hk hl (fun q => s3.mass q * s3.velocity q a.castSucc)
      (fun i => τ * (s2.mass i * s2.velocity i a)) fun q hq => by
        rw [hs.mass q hq, (hs.velocity q hq).1 a, mul_assoc]).1, scal _ _ (fun i => s2.mass i * s2.velocity i a), mul_add]
  · simp only [p2gBody, hone3, mul_one, mul_assoc]
    rw [(hA.moment j hj k hk hl).2, (col hj hk hl (fun q => s3.mass q * s3.velocity q 2)
      (fun _ => 0) fun q hq => by rw [(hs.velocity q hq).2, mul_zero]).1]
    simp [scatterAdd]
  · rw [p2g_force_parts le_rfl g3, p2g_force_parts (by omega) g2, Fin.sum_univ_three, Fin.sum_univ_three]
    have f := fun b : Fin 3 => col hj hk hl (fun q => s3.volume q * s3.stress q a.castSucc b) (fun i => τ * (s2.volume i * s2.stress i a.castSucc b))
      fun q hq => by rw [hs.volume q hq, hs.stress q hq, mul_assoc]
    have e0 := (f 0).2.1 0
    have e1 := (f 1).2.1 1
    have e2 := (f 2).2.2
    rw [scal _ _ (fun i => s2.volume i * s2.stress i a.castSucc 0)] at e0
    rw [scal _ _ (fun i => s2.volume i * s2.stress i a.castSucc 1)] at e1
    have e3 := (col hj hk hl (fun q => s3.force q a.castSucc) (fun i => τ * s2.force i a) fun q hq => (hs.load q hq).1 a).1
    rw [scal _ _ (fun i => s2.force i a)] at e3
    have e4 : scatterAdd (compute ker g2 s2.position).nodeHash (fun i => (compute ker g2 s2.position).shapeGrad i 2 *
        (s2.volume ((compute ker g2 s2.position).pointId i) * s2.stress ((compute ker g2 s2.position).pointId i) a.castSucc 2))
        (nodeHashOf g2 j) = 0 :=
      scatterAdd_eq_zero _ _ _ fun i _ => by rw [fill_grad_plane ker g2 s2.position 2 (by decide) i, zero_mul]
    refine (congrArg₂ (· + ·) (congrArg₂ (· + ·) (congrArg₂ (· + ·) e0 e1) e2) e3).trans ?_
    rw [mul_add, mul_add, mul_add]
    refine congrArg₂ (· + ·) (congrArg₂ (· + ·) rfl ?_) rfl
    exact (mul_zero τ).symm.trans (congrArg (τ * ·) e4.symm)
  · rw [p2g_force_parts le_rfl g3, Fin.sum_univ_three]
    have f := fun b : Fin 3 => col hj hk hl (fun q => s3.volume q * s3.stress q 2 b) (fun i => τ * (s2.volume i * s2.stress i 2 b))
      fun q hq => by rw [hs.volume q hq, hs.stress q hq, mul_assoc]
    have e0 := (f 0).2.1 0
    have e1 := (f 1).2.1 1
    have e2 := (f 2).2.2
    simp only [(hs.shear _).1, (hs.shear _).2, mul_zero] at e0 e1
    have e3 := (col hj hk hl (fun q => s3.force q 2) (fun _ => 0) fun q hq => (hs.load q hq).2).1
    simp only [mul_zero] at e3
    have z2 : ∀ i, scatterAdd (compute ker g2 s2.position).nodeHash (fun _ => (0 : K)) i = 0 := fun i =>
      scatterAdd_eq_zero _ _ _ fun _ _ => rfl
    rw [z2] at e0 e1 e3
    exact (congrArg₂ (· + ·) (congrArg₂ (· + ·) (congrArg₂ (· + ·) e0 e1) e2) e3).trans (by simp)

/-- **C159, gravity in the plane.** -/
theorem slab_gravity {A : GridArrays K 2} {B : GridArrays K 3} (hA : SlabGrid g2 g3 ker lo hi τ A B) {a2 : Fin 2 → K} {a3 : Fin 3 → K}
    (ha : ∀ d : Fin 2, a3 d.castSucc = a2 d) (hz : a3 2 = 0) : SlabGrid g2 g3 ker lo hi τ (gravityGrid a2 A) (gravityGrid a3 B) := by
  refine ⟨hA.mass, hA.moment, hA.momentNt, fun j hj k hk hl => ⟨fun a => ?_, ?_⟩⟩
  · simp only [gravityGrid]
    rw [(hA.force j hj k hk hl).1 a, hA.mass j hj k hk hl, ha a]
    ring
  · simp only [gravityGrid]
    rw [(hA.force j hj k hk hl).2, hz, mul_zero, zero_add]

/-- **C159, the momentum update.** -/
theorem slab_integrate {A : GridArrays K 2} {B : GridArrays K 3} (hA : SlabGrid g2 g3 ker lo hi τ A B) (dt : K) :
    SlabGrid g2 g3 ker lo hi τ (integrateBody dt A) (integrateBody dt B) := by
  refine ⟨hA.mass, hA.moment, fun j hj k hk hl => ⟨fun a => ?_, ?_⟩, hA.force⟩
  · simp only [integrateBody]
    rw [(hA.force j hj k hk hl).1 a, (hA.moment j hj k hk hl).1 a]
    ring
  · simp only [integrateBody]
    rw [(hA.force j hj k hk hl).2, (hA.moment j hj k hk hl).2, zero_mul, zero_add]

theorem nodeVel_thick {cut mass mom : K} (hτ : τ ≠ 0) (h : cut < mass ↔ cut < τ * mass) : nodeVel cut (τ * mass) (τ * mom) = nodeVel cut mass mom := by
  unfold nodeVel
  by_cases hc : cut < mass
  · rw [if_pos hc, if_pos hc, if_pos (h.mp hc), if_pos (h.mp hc), mul_div_mul_left _ _ hτ]
  · rw [if_neg hc, if_neg fun h' => hc (h.mpr h')]

/-- **C159, transfer to the points.** A point of space at least two half widths of the kernel inside gets the new velocity, place, velocity
gradient and deformation gradient of the point of the plane, no velocity along the third axis, and `τ` times its volume. -/
theorem slab_g2p (hg : GridOver g2 g3) (h0 : 0 ≤ lo) (h1 : hi ≤ g3.gridSize 2) (hτ : τ ≠ 0) {of : Fin m → Fin n} {ξ : Fin n → K}
    {s2 : MPState K 2 n} {s3 : MPState K 3 m} (hs : Slab g3 lo hi τ of ξ s2 s3) {A : GridArrays K 2} {B : GridArrays K 3}
    (hA : SlabGrid g2 g3 ker lo hi τ A B)
    (hcut : ∀ j, isValid g2.gridSize j → ∀ k, k ∈ Finset.Ico 0 (g3.gridSize 2 : ℤ) → InnerLayer ker lo hi k →
      (uslCutoff < A.mass (nodeHashOf g2 j) ↔ uslCutoff < B.mass (nodeHashOf g3 (nodeAbove j k)))) (alpha dt : K) (q : Fin m)
    (hq : InLayers g3 (lo + 2 * halfWidth ker) (hi - 2 * halfWidth ker) (s3.position q)) :
    let t2 := g2pBody alpha dt (compute ker g2 s2.position) none A s2
    let t3 := g2pBody alpha dt (compute ker g3 s3.position) none B s3
    (∀ d : Fin 2, t3.position q d.castSucc = t2.position (of q) d) ∧ t3.position q 2 = s3.position q 2 ∧
    (∀ a : Fin 2, t3.velocity q a.castSucc = t2.velocity (of q) a) ∧ t3.velocity q 2 = 0 ∧
    t3.L q = t2.L (of q) ∧ t3.F q = t2.F (of q) ∧ t3.volume q = τ * t2.volume (of q) := by
  intro t2 t3
  have hR := reach_pos (K := K) ker
  have hz := hq 0
  change _ ≤ cellCoord g3 (s3.position q) 2 ∧ cellCoord g3 (s3.position q) 2 < _ at hz
  have hin : InLayers g3 lo hi (s3.position q) := fun d => ⟨by
    show _ ≤ cellCoord g3 (s3.position q) 2; linarith [hz.1], by show cellCoord g3 (s3.position q) 2 < _; linarith [hz.2]⟩
  have hI : ∀ k : ℤ, basis1 ker (cellCoord g3 (s3.position q) 2 - k) ≠ 0 → k ∈ Finset.Ico 0 (g3.gridSize 2 : ℤ) ∧ InnerLayer ker lo hi k := by
    intro k hk
    have hb := basis1_reach ker hk
    have i1 : lo + halfWidth ker ≤ k := by linarith [hb.2, hz.1]
    have i2 : (k : K) + halfWidth ker ≤ hi := by linarith [hb.1, hz.2]
    refine ⟨Finset.mem_Ico.mpr ⟨?_, ?_⟩, i1, i2⟩
    · have : (0 : K) ≤ k := by linarith
      exact_mod_cast this
    · have : (k : K) < (g3.gridSize 2 : ℤ) := by push_cast; linarith
      exact_mod_cast this
  have gat := fun V3 V2 hV => slab_gather hg ker (hs.place q hin) (InnerLayer ker lo hi) hI V3 V2 hV
  -- nodal velocities
  have vel : ∀ (MA : ℕ → Fin 2 → K) (MB : ℕ → Fin 3 → K), (∀ j, isValid g2.gridSize j → ∀ k, k ∈ Finset.Ico 0 (g3.gridSize 2 : ℤ) →
      InnerLayer ker lo hi k → (∀ a : Fin 2, MB (nodeHashOf g3 (nodeAbove j k)) a.castSucc = τ * MA (nodeHashOf g2 j) a) ∧
      MB (nodeHashOf g3 (nodeAbove j k)) 2 = 0) → ∀ j, isValid g2.gridSize j → ∀ k, k ∈ Finset.Ico 0 (g3.gridSize 2 : ℤ) →
      InnerLayer ker lo hi k → (∀ a : Fin 2, nodeVel uslCutoff (B.mass (nodeHashOf g3 (nodeAbove j k))) (MB (nodeHashOf g3 (nodeAbove j k)) a.castSucc) =
        nodeVel uslCutoff (A.mass (nodeHashOf g2 j)) (MA (nodeHashOf g2 j) a)) ∧
      nodeVel uslCutoff (B.mass (nodeHashOf g3 (nodeAbove j k))) (MB (nodeHashOf g3 (nodeAbove j k)) 2) = 0 := by
    intro MA MB hM j hj k hk hl
    refine ⟨fun a => ?_, ?_⟩
    · rw [(hM j hj k hk hl).1 a, hA.mass j hj k hk hl, nodeVel_thick hτ (hA.mass j hj k hk hl ▸ hcut j hj k hk hl)]
    · rw [(hM j hj k hk hl).2]
      unfold nodeVel
      split_ifs <;> simp
  have vn := vel A.momentNt B.momentNt hA.momentNt
  have vo := vel A.moment B.moment hA.moment
  have pN2 : ∀ a, pointSum (compute ker g2 s2.position) (fun i => (compute ker g2 s2.position).shapeVal i *
      nodeVel uslCutoff (A.mass ((compute ker g2 s2.position).nodeHash i)) (A.momentNt ((compute ker g2 s2.position).nodeHash i) a)) (of q) =
      ∑ s : Fin (windowSize ker 2), (computeSingle ker g2 (s2.position (of q)) s).shapeVal *
        nodeVel uslCutoff (A.mass (computeSingle ker g2 (s2.position (of q)) s).nodeHash)
          (A.momentNt (computeSingle ker g2 (s2.position (of q)) s).nodeHash a) := fun a =>
    pointSum_compute ker g2 s2.position (fun _ I => I.shapeVal * nodeVel uslCutoff (A.mass I.nodeHash) (A.momentNt I.nodeHash a)) (of q)
  have pN3 : ∀ a, pointSum (compute ker g3 s3.position) (fun i => (compute ker g3 s3.position).shapeVal i *
      nodeVel uslCutoff (B.mass ((compute ker g3 s3.position).nodeHash i)) (B.momentNt ((compute ker g3 s3.position).nodeHash i) a)) q =
      ∑ s : Fin (windowSize ker 3), (computeSingle ker g3 (s3.position q) s).shapeVal *
        nodeVel uslCutoff (B.mass (computeSingle ker g3 (s3.position q) s).nodeHash)
          (B.momentNt (computeSingle ker g3 (s3.position q) s).nodeHash a) := fun a =>
    pointSum_compute ker g3 s3.position (fun _ I => I.shapeVal * nodeVel uslCutoff (B.mass I.nodeHash) (B.momentNt I.nodeHash a)) q
  have pD2 : ∀ a, pointSum (compute ker g2 s2.position) (fun i => (compute ker g2 s2.position).shapeVal i *
      (nodeVel uslCutoff (A.mass ((compute ker g2 s2.position).nodeHash i)) (A.momentNt ((compute ker g2 s2.position).nodeHash i) a) -
       nodeVel uslCutoff (A.mass ((compute ker g2 s2.position).nodeHash i)) (A.moment ((compute ker g2 s2.position).nodeHash i) a))) (of q) =
      ∑ s : Fin (windowSize ker 2), (computeSingle ker g2 (s2.position (of q)) s).shapeVal *
        (nodeVel uslCutoff (A.mass (computeSingle ker g2 (s2.position (of q)) s).nodeHash)
          (A.momentNt (computeSingle ker g2 (s2.position (of q)) s).nodeHash a) -
         nodeVel uslCutoff (A.mass (computeSingle ker g2 (s2.position (of q)) s).nodeHash)
          (A.moment (computeSingle ker g2 (s2.position (of q)) s).nodeHash a)) := fun a =>
    pointSum_compute ker g2 s2.position (fun _ I => I.shapeVal * (nodeVel uslCutoff (A.mass I.nodeHash) (A.momentNt I.nodeHash a) -
      nodeVel uslCutoff (A.mass I.nodeHash) (A.moment I.nodeHash a))) (of q)
  have pD3 : ∀ a, pointSum (compute ker g3 s3.position) (fun i => (compute ker g3 s3.position).shapeVal i *
      (nodeVel uslCutoff (B.mass ((compute ker g3 s3.position).nodeHash i)) (B.momentNt ((compute ker g3 s3.position).nodeHash i) a) -
       nodeVel uslCutoff (B.mass ((compute ker g3 s3.position).nodeHash i)) (B.moment ((compute ker g3 s3.position).nodeHash i) a))) q =
      ∑ s : Fin (windowSize ker 3), (computeSingle ker g3 (s3.position q) s).shapeVal *
        (nodeVel uslCutoff (B.mass (computeSingle ker g3 (s3.position q) s).nodeHash)
          (B.momentNt (computeSingle ker g3 (s3.position q) s).nodeHash a) -
         nodeVel uslCutoff (B.mass (computeSingle ker g3 (s3.position q) s).nodeHash)
          (B.moment (computeSingle ker g3 (s3.position q) s).nodeHash a)) := fun a =>
    pointSum_compute ker g3 s3.position (fun _ I => I.shapeVal * (nodeVel uslCutoff (B.mass I.nodeHash) (B.momentNt I.nodeHash a) -
      nodeVel uslCutoff (B.mass I.nodeHash) (B.moment I.nodeHash a))) q
  have gn : ∀ a : Fin 2, _ := fun a => gat (fun i => nodeVel uslCutoff (B.mass i) (B.momentNt i a.castSucc))
    (fun i => nodeVel uslCutoff (A.mass i) (A.momentNt i a)) fun j hj k hk hl => (vn j hj k hk hl).1 a
  have gz := gat (fun i => nodeVel uslCutoff (B.mass i) (B.momentNt i 2)) (fun _ => 0) fun j hj k hk hl => (vn j hj k hk hl).2
  have gd : ∀ a : Fin 2, _ := fun a => gat
    (fun i => nodeVel uslCutoff (B.mass i) (B.momentNt i a.castSucc) - nodeVel uslCutoff (B.mass i) (B.moment i a.castSucc))
    (fun i => nodeVel uslCutoff (A.mass i) (A.momentNt i a) - nodeVel uslCutoff (A.mass i) (A.moment i a)) fun j hj k hk hl => by
      rw [(vn j hj k hk hl).1 a, (vo j hj k hk hl).1 a]
  have gdz := gat (fun i => nodeVel uslCutoff (B.mass i) (B.momentNt i 2) - nodeVel uslCutoff (B.mass i) (B.moment i 2)) (fun _ => 0)
    fun j hj k hk hl => by rw [(vn j hj k hk hl).2, (vo j hj k hk hl).2, sub_zero]
  simp only [mul_zero, Finset.sum_const_zero] at gz gdz
  have hN : ∀ a : Fin 2, _ := fun a => (pN3 a.castSucc).trans ((gn a).1.trans (pN2 a).symm)
  have hNz := (pN3 2).trans gz.1
  have hD : ∀ a : Fin 2, _ := fun a => (pD3 a.castSucc).trans ((gd a).1.trans (pD2 a).symm)
  have hDz := (pD3 2).trans gdz.1
  -- velocity gradients
  have pL2 : ∀ i j : Fin 3, pointSum (compute ker g2 s2.position) (fun r => (compute ker g2 s2.position).shapeGrad r i *
      -(pad3 (fun a => nodeVel uslCutoff (A.mass ((compute ker g2 s2.position).nodeHash r))
        (A.momentNt ((compute ker g2 s2.position).nodeHash r) a)) j)) (of q) =
      ∑ s : Fin (windowSize ker 2), (computeSingle ker g2 (s2.position (of q)) s).shapeGrad i *
        -(pad3 (fun a => nodeVel uslCutoff (A.mass (computeSingle ker g2 (s2.position (of q)) s).nodeHash)
          (A.momentNt (computeSingle ker g2 (s2.position (of q)) s).nodeHash a)) j) := fun i j =>
    pointSum_compute ker g2 s2.position (fun _ I => I.shapeGrad i *
      -(pad3 (fun a => nodeVel uslCutoff (A.mass I.nodeHash) (A.momentNt I.nodeHash a)) j)) (of q)
  have pL3 : ∀ i j : Fin 3, pointSum (compute ker g3 s3.position) (fun r => (compute ker g3 s3.position).shapeGrad r i *
      -(pad3 (fun a => nodeVel uslCutoff (B.mass ((compute ker g3 s3.position).nodeHash r))
        (B.momentNt ((compute ker g3 s3.position).nodeHash r) a)) j)) q =
      ∑ s : Fin (windowSize ker 3), (computeSingle ker g3 (s3.position q) s).shapeGrad i *
        -(pad3 (fun a => nodeVel uslCutoff (B.mass (computeSingle ker g3 (s3.position q) s).nodeHash)
          (B.momentNt (computeSingle ker g3 (s3.position q) s).nodeHash a)) j) := fun i j =>
    pointSum_compute ker g3 s3.position (fun _ I => I.shapeGrad i *
      -(pad3 (fun a => nodeVel uslCutoff (B.mass I.nodeHash) (B.momentNt I.nodeHash a)) j)) q
  have grad2z : ∀ s : Fin (windowSize ker 2), (computeSingle ker g2 (s2.position (of q)) s).shapeGrad 2 = 0 := by
    intro s
    by_cases hv : isValid g2.gridSize (nodeIdx ker g2 (s2.position (of q)) s)
    · rw [computeSingle_grad ker g2 _ _ hv, pad3_ge _ 2 (by decide)]
    · simp only [computeSingle, if_neg hv]
  have neg : ∀ {N : ℕ} (f v : Fin N → K), ∑ s, f s * -v s = -∑ s, f s * v s := fun f v => by
    rw [← Finset.sum_neg_distrib]; exact Finset.sum_congr rfl fun s _ => by ring
  have hL : t3.L q = t2.L (of q) := by
    set M3 : Mat3 K := fun i j => pointSum (compute ker g3 s3.position) (fun r => (compute ker g3 s3.position).shapeGrad r i *
        -(pad3 (fun a => nodeVel uslCutoff (B.mass ((compute ker g3 s3.position).nodeHash r))
          (B.momentNt ((compute ker g3 s3.position).nodeHash r) a)) j)) q with hM3
    set M2 : Mat3 K := fun i j => pointSum (compute ker g2 s2.position) (fun r => (compute ker g2 s2.position).shapeGrad r i *
        -(pad3 (fun a => nodeVel uslCutoff (A.mass ((compute ker g2 s2.position).nodeHash r))
          (A.momentNt ((compute ker g2 s2.position).nodeHash r) a)) j)) (of q) with hM2
    have eL3 : t3.L q = if (3 : ℕ) = 2 then set22 M3 0 else M3 := rfl
    have eL2 : t2.L (of q) = if (2 : ℕ) = 2 then set22 M2 0 else M2 := rfl
    rw [eL3, eL2, if_neg (by decide), if_pos rfl, hM3, hM2]
    funext i j
    have planar : ∀ a b : Fin 2, pointSum (compute ker g3 s3.position) (fun r => (compute ker g3 s3.position).shapeGrad r a.castSucc *
        -(pad3 (fun a => nodeVel uslCutoff (B.mass ((compute ker g3 s3.position).nodeHash r))
          (B.momentNt ((compute ker g3 s3.position).nodeHash r) a)) b.castSucc)) q =
        pointSum (compute ker g2 s2.position) (fun r => (compute ker g2 s2.position).shapeGrad r a.castSucc *
        -(pad3 (fun a => nodeVel uslCutoff (A.mass ((compute ker g2 s2.position).nodeHash r))
          (A.momentNt ((compute ker g2 s2.position).nodeHash r) a)) b.castSucc)) (of q) := by
      intro a b
      rw [pL3, pL2, neg, neg]
      exact congrArg Neg.neg (by
        have := (gn b).2.1 a
        refine Eq.trans (Finset.sum_congr rfl fun s _ => ?_) (this.trans (Finset.sum_congr rfl fun s _ => ?_))
        · rw [pad3_lt _ b.castSucc (by rw [Fin.val_castSucc]; omega)]
        · rw [pad3_lt _ b.castSucc (by rw [Fin.val_castSucc]; omega)]; rfl)
    have col3 : ∀ i, pointSum (compute ker g3 s3.position) (fun r => (compute ker g3 s3.position).shapeGrad r i *
        -(pad3 (fun a => nodeVel uslCutoff (B.mass ((compute ker g3 s3.position).nodeHash r))
          (B.momentNt ((compute ker g3 s3.position).nodeHash r) a)) 2)) q = 0 := by
      intro i
      rw [pL3, neg, neg_eq_zero]
      fin_cases i
      · exact gz.2.1 0
      · exact gz.2.1 1
      · exact gz.2.2
    have row3 : ∀ b : Fin 2, pointSum (compute ker g3 s3.position) (fun r => (compute ker g3 s3.position).shapeGrad r 2 *
        -(pad3 (fun a => nodeVel uslCutoff (B.mass ((compute ker g3 s3.position).nodeHash r))
          (B.momentNt ((compute ker g3 s3.position).nodeHash r) a)) b.castSucc)) q = 0 := by
      intro b
      rw [pL3, neg, neg_eq_zero]
      refine Eq.trans (Finset.sum_congr rfl fun s _ => ?_) (gn b).2.2
      rw [pad3_lt _ b.castSucc (by rw [Fin.val_castSucc]; omega)]
    have col2 : ∀ i, pointSum (compute ker g2 s2.position) (fun r => (compute ker g2 s2.position).shapeGrad r i *
        -(pad3 (fun a => nodeVel uslCutoff (A.mass ((compute ker g2 s2.position).nodeHash r))
          (A.momentNt ((compute ker g2 s2.position).nodeHash r) a)) 2)) (of q) = 0 := by
      intro i
      rw [pL2]
      exact Finset.sum_eq_zero fun s _ => by rw [pad3_ge _ 2 (by decide), neg_zero, mul_zero]
    have row2 : ∀ j, pointSum (compute ker g2 s2.position) (fun r => (compute ker g2 s2.position).shapeGrad r 2 *
        -(pad3 (fun a => nodeVel uslCutoff (A.mass ((compute ker g2 s2.position).nodeHash r))
          (A.momentNt ((compute ker g2 s2.position).nodeHash r) a)) j)) (of q) = 0 := by
      intro j
      rw [pL2]
      exact Finset.sum_eq_zero fun s _ => by rw [grad2z, zero_mul]
    fin_cases i <;> fin_cases j
    · exact planar 0 0
    · exact planar 0 1
    · exact (col3 0).trans (col2 0).symm
    · exact planar 1 0
    · exact planar 1 1
    · exact (col3 1).trans (col2 1).symm
    · exact (row3 0).trans (row2 0).symm
    · exact (row3 1).trans (row2 1).symm
    · exact col3 2
  have hL2 : ∀ j, t2.L (of q) 2 j = 0 := by
    intro j
    have eL2 : t2.L (of q) 2 j = set22 (fun i j => pointSum (compute ker g2 s2.position) (fun r => (compute ker g2 s2.position).shapeGrad r i *
        -(pad3 (fun a => nodeVel uslCutoff (A.mass ((compute ker g2 s2.position).nodeHash r))
          (A.momentNt ((compute ker g2 s2.position).nodeHash r) a)) j)) (of q)) 0 2 j := rfl
    rw [eL2]
    unfold set22
    split_ifs
    · rfl
    · exact (pL2 2 j).trans (Finset.sum_eq_zero fun s _ => by rw [grad2z, zero_mul])
  have hF : t3.F q = t2.F (of q) := by
    have e3 : t3.F q = (1 - dt • t3.L q) * s3.F q := rfl
    have e2 : t2.F (of q) = set22 ((1 - dt • t2.L (of q)) * s2.F (of q)) 1 := rfl
    rw [e3, e2, hL, hs.F q hin]
    refine (set22_self ?_).symm
    rw [Matrix.mul_apply, Fin.sum_univ_three]
    simp only [Matrix.sub_apply, Matrix.smul_apply, hL2, smul_zero, sub_zero]
    rw [Matrix.one_apply_ne (by decide), Matrix.one_apply_ne (by decide), Matrix.one_apply_eq, hs.planar]
    ring
  refine ⟨fun d => ?_, ?_, fun a => ?_, ?_, hL, hF, ?_⟩
  · show s3.position q d.castSucc + _ * dt = s2.position (of q) d + _ * dt
    rw [hs.place q hin d]
    exact congrArg (fun x => s2.position (of q) d + x * dt) (hN d)
  · show s3.position q 2 + _ * dt = _
    exact (congrArg (fun x => s3.position q 2 + x * dt) hNz).trans (by ring)
  · show (1 - alpha) * _ + alpha * (s3.velocity q a.castSucc + _) = (1 - alpha) * _ + alpha * (s2.velocity (of q) a + _)
    rw [(hs.velocity q hin).1 a]
    exact congrArg₂ (fun x y => (1 - alpha) * x + alpha * (s2.velocity (of q) a + y)) (hN a) (hD a)
  · show (1 - alpha) * _ + alpha * (s3.velocity q 2 + _) = 0
    rw [(hs.velocity q hin).2]
    exact (congrArg₂ (fun x y => (1 - alpha) * x + alpha * (0 + y)) hNz hDz).trans (by ring)
  · show (t3.F q).det * s3.volume0 q = τ * ((t2.F (of q)).det * s2.volume0 (of q))
    rw [hF, hs.volume0 q hin]
    ring

/-- **C159, the slab after the transfers.** If no point of space moves by more than `w` cells along the third axis, what is left of the slab
after cutting off two half widths of the kernel and `w` cells on either side is again a slab above the plane. -/
theorem slab_after (hg : GridOver g2 g3) (hcell : 0 < g3.cellSize) (h0 : 0 ≤ lo) (h1 : hi ≤ g3.gridSize 2) (hτ : τ ≠ 0) {of : Fin m → Fin n} {ξ : Fin n → K}
    {s2 : MPState K 2 n} {s3 : MPState K 3 m} (hs : Slab g3 lo hi τ of ξ s2 s3) {A : GridArrays K 2} {B : GridArrays K 3}
    (hA : SlabGrid g2 g3 ker lo hi τ A B)
    (hcut : ∀ j, isValid g2.gridSize j → ∀ k, k ∈ Finset.Ico 0 (g3.gridSize 2 : ℤ) → InnerLayer ker lo hi k →
      (uslCutoff < A.mass (nodeHashOf g2 j) ↔ uslCutoff < B.mass (nodeHashOf g3 (nodeAbove j k)))) (alpha dt : K) {w : K} (hw0 : 0 ≤ w)
    (hw : ∀ q, |(g2pBody alpha dt (compute ker g3 s3.position) none B s3).position q 2 - s3.position q 2| ≤ w * g3.cellSize) :
    Slab g3 (lo + (2 * halfWidth ker + w)) (hi - (2 * halfWidth ker + w)) τ of ξ (g2pBody alpha dt (compute ker g2 s2.position) none A s2)
      (g2pBody alpha dt (compute ker g3 s3.position) none B s3) := by
  have main := slab_g2p hg h0 h1 hτ hs hA hcut alpha dt
  set t2 := g2pBody alpha dt (compute ker g2 s2.position) none A s2 with ht2
  set t3 := g2pBody alpha dt (compute ker g3 s3.position) none B s3 with ht3
  have hR := reach_pos (K := K) ker
  have deep : ∀ q, InLayers g3 (lo + (2 * halfWidth ker + w)) (hi - (2 * halfWidth ker + w)) (t3.position q) →
      InLayers g3 (lo + 2 * halfWidth ker) (hi - 2 * halfWidth ker) (s3.position q) := by
    intro q hq d
    have h1 := hq 0
    change _ ≤ (t3.position q 2 - g3.origin 2) / g3.cellSize ∧ (t3.position q 2 - g3.origin 2) / g3.cellSize < _ at h1
    have h2 := abs_le.mp (hw q)
    change _ ≤ (s3.position q 2 - g3.origin 2) / g3.cellSize ∧ (s3.position q 2 - g3.origin 2) / g3.cellSize < _
    have e : (t3.position q 2 - g3.origin 2) / g3.cellSize = (s3.position q 2 - g3.origin 2) / g3.cellSize +
        (t3.position q 2 - s3.position q 2) / g3.cellSize := by rw [← add_div]; congr 1; ring
    have e1 : -w ≤ (t3.position q 2 - s3.position q 2) / g3.cellSize := by rw [le_div_iff₀ hcell]; linarith [h2.1]
    have e2 : (t3.position q 2 - s3.position q 2) / g3.cellSize ≤ w := by rw [div_le_iff₀ hcell]; exact h2.2
    rw [e] at h1
    exact ⟨by linarith [h1.1], by linarith [h1.2]⟩
  have inn : ∀ q, InLayers g3 (lo + 2 * halfWidth ker) (hi - 2 * halfWidth ker) (s3.position q) → InLayers g3 lo hi (s3.position q) :=
    fun q hq d => ⟨by linarith [(hq d).1], by linarith [(hq d).2]⟩
  refine ⟨⟨fun q hq => ?_, fun b k hk => ?_⟩, fun q hq => (main q (deep q hq)).1,
    fun q hq => ⟨(main q (deep q hq)).2.2.1, (main q (deep q hq)).2.2.2.1⟩, fun q hq => hs.load q (inn q (deep q hq)),
    fun q hq => hs.mass q (inn q (deep q hq)), fun q hq => (main q (deep q hq)).2.2.2.2.2.2, fun q hq => hs.volume0 q (inn q (deep q hq)),
    fun q hq => hs.stress q (inn q (deep q hq)), fun q hq => (main q (deep q hq)).2.2.2.2.2.1, hs.shear, fun i => rfl⟩
  · have hd := deep q hq
    obtain ⟨k, hk⟩ := hs.layers.lattice q (inn q hd)
    refine ⟨k, fun d => ?_⟩
    have e : (fun _ : Fin 1 => t3.position q 2) = fun _ => s3.position q 2 := funext fun _ => (main q hd).2.1
    rw [e]
    exact hk d
  · have hk0 : ∀ d : Fin 1, lo + 2 * halfWidth ker ≤ ξ b + k d ∧ ξ b + k d < hi - 2 * halfWidth ker := fun d =>
      ⟨by linarith [(hk d).1], by linarith [(hk d).2]⟩
    obtain ⟨q, ⟨hq1, hq2⟩, hu⟩ := hs.layers.once b k fun d => ⟨by linarith [(hk0 d).1], by linarith [(hk0 d).2]⟩
    have hd : InLayers g3 (lo + 2 * halfWidth ker) (hi - 2 * halfWidth ker) (s3.position q) := fun d => by
      rw [hq2 d]; exact hk0 d
    refine ⟨q, ⟨hq1, fun d => ?_⟩, ?_⟩
    · have e : (fun _ : Fin 1 => t3.position q 2) = fun _ => s3.position q 2 := funext fun _ => (main q hd).2.1
      rw [e]
      exact hq2 d
    · rintro p ⟨hp1, hp2⟩
      have hpd := deep p fun d => by rw [hp2 d]; exact hk d
      refine hu p ⟨hp1, fun d => ?_⟩
      have e : (fun _ : Fin 1 => t3.position p 2) = fun _ => s3.position p 2 := funext fun _ => (main p hpd).2.1
      have := hp2 d
      rw [e] at this
      exact this

theorem slab_reset {of : Fin m → Fin n} {ξ : Fin n → K} {s2 : MPState K 2 n} {s3 : MPState K 3 m} (hs : Slab g3 lo hi τ of ξ s2 s3) :
    Slab g3 lo hi τ of ξ (resetBody s2) (resetBody s3) :=
  ⟨hs.layers, hs.place, hs.velocity, fun _ _ => ⟨fun _ => (mul_zero τ).symm, rfl⟩, hs.mass, hs.volume, hs.volume0, hs.stress, hs.F, hs.shear,
    hs.planar⟩

theorem slab_new : SlabGrid g2 g3 ker lo hi τ GridArrays.new GridArrays.new :=
  ⟨fun _ _ _ _ _ => (mul_zero τ).symm, fun _ _ _ _ _ => ⟨fun _ => (mul_zero τ).symm, rfl⟩, fun _ _ _ _ _ => ⟨fun _ => (mul_zero τ).symm, rfl⟩,
    fun _ _ _ _ _ => ⟨fun _ => (mul_zero τ).symm, rfl⟩⟩

end

section
variable {K : Type*} [Field K] [LinearOrder K] [IsStrictOrderedRing K] [FloorRing K] {z y : Sz} {SS LS SS' LS' : Type*} {fn fn' : MathFns K}
  {sv : Solver z K 2 SS LS (ForceState K 2)} {tv : Solver y K 3 SS' LS' (ForceState K 3)}

/-- Only the stress changed. -/
def StressOnly {dim : ℕ} (n : ℕ) (s s' : MPState K dim n) : Prop := s' = { s with stress := s'.stress }

theorem law_fold_stress {w : Sz} {dim : ℕ} {SS LS : Type*} {fn : MathFns K} {sv : Solver w K dim SS LS (ForceState K dim)}
    (hL : ∀ c, (sv.laws c).OnlyStress) (hreset : ∀ c, (sv.laws c).requiresFReset = false) (dt : K) (cs : List (Coupling w))
    (x x' : Ctx w K dim SS LS (ForceState K dim)) (h : foldE (lawCoupling fn sv.laws dt) x cs = .ok x') :
    ∀ p, Body.Rel StressOnly (x.world.bodies p) (x'.world.bodies p) := by
  refine foldE_rel (R := fun (x x' : Ctx w K dim SS LS (ForceState K dim)) =>
      ∀ p, Body.Rel StressOnly (x.world.bodies p) (x'.world.bodies p))
    (fun _ _ => Body.Rel.refl (R := StressOnly) (fun _ _ => rfl) _)
    (fun a b c h1 h2 p => (h1 p).trans (R := StressOnly)
      (fun n a b c h1 h2 => h2.trans (by rw [h1])) (h2 p)) cs x x' ?_ h
  intro c _ y y' hy
  cases hs : c.skip with
  | true =>
    rw [lawCoupling_skip hs hy]
    exact fun _ => Body.Rel.refl (R := StressOnly) (fun _ _ => rfl) _
  | false =>
    obtain ⟨s, r, hb, hr, rfl⟩ := lawCoupling_ok hs hy
    refine rel_setBody (R := StressOnly) (fun _ _ => rfl) y c.p _ ?_
    rw [hb]
    have e := hL c.c s _ dt r hr
    change removeShear fn _ r.1 = { s with stress := (removeShear fn _ r.1).stress }
    rw [hreset]
    exact e

/-- The grid of a USL call with one body on the grid, before the update of the momenta. -/
theorem stage_grid {w : Sz} {dim : ℕ} {SS LS : Type*} {fn : MathFns K} {sv : Solver w K dim SS LS (ForceState K dim)}
    {gravs : List (List (Fin w.G) × ℕ)} {st st' : SimState w K dim SS LS (ForceState K dim)} {grids : Fin w.G → GridArrays K dim}
    {f : Fin w.G → ℕ → Fin dim → K} {x3 x4 : Ctx w K dim SS LS (ForceState K dim)} (S : UslStages fn sv gravs st st' grids f x3 x4)
    (hn : (sv.couplings.map (·.p)).Nodup) (c : Coupling w) (hc : c ∈ sv.couplings) (hs : c.skip = false)
    (hone : ∀ b ∈ sv.couplings, b.skip = false → b.g = c.g → b = c) {s : MPState K dim (w.np c.p)} (hb : st.world.bodies c.p = .deformable s) :
    grids c.g = integrateBody st.dt (gravityGrid (gridAccel st.mech.forces gravs c.g)
      (p2gBody (compute c.ker (sv.domains c.g) s.position) (resetBody s) GridArrays.new)) := by
  have hone1 : ∀ i, (compute c.ker (sv.domains c.g) s.position).cpicMask i = 1 := fun _ => rfl
  have e1 : (grids c.g).mass = (p2gBody (compute c.ker (sv.domains c.g) s.position) (resetBody s) GridArrays.new).mass := by
    funext j
    rw [S.mass, gridSum_single sv.couplings hn c hc hs hone, hb]
    simp only [p2gBody, hone1, mul_one, GridArrays.new, zero_add]
    rfl
  have e2 : (grids c.g).moment = (p2gBody (compute c.ker (sv.domains c.g) s.position) (resetBody s) GridArrays.new).moment := by
    funext j a
    rw [S.moment, gridSum_single sv.couplings hn c hc hs hone, hb]
    simp only [p2gBody, hone1, mul_one, GridArrays.new, zero_add]
    rfl
  have e3 : (grids c.g).force = (gravityGrid (gridAccel st.mech.forces gravs c.g)
      (p2gBody (compute c.ker (sv.domains c.g) s.position) (resetBody s) GridArrays.new)).force := by
    funext j a
    rw [S.force, S.internal c hc hs hone s hb, e1]
    rfl
  have e4 := S.momentNt c hc hs
  rw [e2, e3] at e4
  calc grids c.g = ⟨(grids c.g).mass, (grids c.g).moment, (grids c.g).momentNt, (grids c.g).force⟩ := rfl
    _ = _ := by rw [e1, e2, e3, e4]; rfl

/-- **C159, one step of the solver.** A scene in the plane and a scene in space with one body on the grid, gravity in the plane, the same
kernel, step and blend. If the body of space is a slab above the body of the plane, then after a step it is again one, between layers that
are two half widths of the kernel and `w` cells further inside, as soon as the laws gave the points above each other the same stress. -/
theorem slab_step (gravs : List (List (Fin z.G) × ℕ)) (gravs' : List (List (Fin y.G) × ℕ)) (hforces : sv.forces = gravityList gravs)
    (hforces' : tv.forces = gravityList gravs') (hL : ∀ c, (sv.laws c).OnlyStress) (hL' : ∀ c, (tv.laws c).OnlyStress)
    (hF : ∀ c, (sv.laws c).requiresFReset = false) (hF' : ∀ c, (tv.laws c).requiresFReset = false)
    {st st' : SimState z K 2 SS LS (ForceState K 2)} {ut ut' : SimState y K 3 SS' LS' (ForceState K 3)}
    (h : uslCall fn sv st = .ok st') (h' : uslCall fn' tv ut = .ok ut') (hr : Regular uslCutoff sv st.world) (hr' : Regular uslCutoff tv ut.world)
    (halpha : tv.alpha = sv.alpha) (hdt : ut.dt = st.dt)
    (c : Coupling z) (hc : c ∈ sv.couplings) (hs : c.skip = false) (hone : ∀ b ∈ sv.couplings, b.skip = false → b.g = c.g → b = c)
    (d : Coupling y) (hd : d ∈ tv.couplings) (hds : d.skip = false) (hdone : ∀ b ∈ tv.couplings, b.skip = false → b.g = d.g → b = d)
    (hker : d.ker = c.ker) (hg : GridOver (sv.domains c.g) (tv.domains d.g))
    (hacc : (∀ a : Fin 2, gridAccel ut.mech.forces gravs' d.g a.castSucc = gridAccel st.mech.forces gravs c.g a) ∧
      gridAccel ut.mech.forces gravs' d.g 2 = 0)
    {s2 : MPState K 2 (z.np c.p)} {s3 : MPState K 3 (y.np d.p)} (hb : st.world.bodies c.p = .deformable s2)
    (hb' : ut.world.bodies d.p = .deformable s3) {lo hi τ : K} (h0 : 0 ≤ lo) (h1 : hi ≤ (tv.domains d.g).gridSize 2) (hτ : 0 < τ)
    {of : Fin (y.np d.p) → Fin (z.np c.p)} {ξ : Fin (z.np c.p) → K} (hslab : Slab (tv.domains d.g) lo hi τ of ξ s2 s3) :
    ∃ t2 t3, st'.world.bodies c.p = .deformable t2 ∧ ut'.world.bodies d.p = .deformable t3 ∧
      (∀ q, InLayers (tv.domains d.g) (lo + 2 * halfWidth c.ker) (hi - 2 * halfWidth c.ker) (s3.position q) →
        (∀ a : Fin 2, t3.position q a.castSucc = t2.position (of q) a) ∧ t3.position q 2 = s3.position q 2 ∧
        (∀ a : Fin 2, t3.velocity q a.castSucc = t2.velocity (of q) a) ∧ t3.velocity q 2 = 0 ∧
        t3.L q = t2.L (of q) ∧ t3.F q = t2.F (of q) ∧ t3.volume q = τ * t2.volume (of q)) ∧
      ∀ w, 0 ≤ w → (∀ q, |t3.position q 2 - s3.position q 2| ≤ w * (tv.domains d.g).cellSize) →
        (∀ q, InLayers (tv.domains d.g) (lo + (2 * halfWidth c.ker + w)) (hi - (2 * halfWidth c.ker + w)) (t3.position q) →
          t3.stress q = t2.stress (of q)) → (∀ i, t2.stress i 2 0 = 0 ∧ t2.stress i 2 1 = 0) →
        Slab (tv.domains d.g) (lo + (2 * halfWidth c.ker + w)) (hi - (2 * halfWidth c.ker + w)) τ of ξ t2 t3 := by
  obtain ⟨grids, f, x3, x4, S⟩ := usl_stages gravs (.inl rfl) hforces h hr
  obtain ⟨grids', f', x3', x4', S'⟩ := usl_stages gravs' (.inr rfl) hforces' h' hr'
  obtain ⟨s2', e1, -, -, hx⟩ := S.body c hc hs
  rw [hb] at e1
  cases e1
  obtain ⟨s3', e1, -, -, hx'⟩ := S'.body d hd hds
  rw [hb'] at e1
  cases e1
  have hl := law_fold_stress hL hF st.dt sv.couplings x3 x4 S.law c.p
  have hl' := law_fold_stress hL' hF' ut.dt tv.couplings x3' x4' S'.law d.p
  rw [hx, ← S.world'] at hl
  rw [hx', ← S'.world'] at hl'
  have G := stage_grid S hr.single c hc hs hone hb
  have G' := stage_grid S' hr'.single d hd hds hdone hb'
  have hR := slab_reset hslab
  have hgrid : SlabGrid (sv.domains c.g) (tv.domains d.g) c.ker lo hi τ (grids c.g) (grids' d.g) := by
    rw [G, G', hker, hdt]
    exact slab_integrate (slab_gravity (slab_p2g hg hR slab_new) hacc.1 hacc.2) st.dt
  have pos_iff : ∀ j, uslCutoff < (grids c.g).mass j ↔ 0 < (grids c.g).mass j := fun j =>
    ⟨fun h => lt_trans (by unfold uslCutoff; positivity) h, fun h => by
      have := hr.cutoff c.g j
      rw [← S.mass] at this
      exact this h⟩
  have pos_iff' : ∀ j, uslCutoff < (grids' d.g).mass j ↔ 0 < (grids' d.g).mass j := fun j =>
    ⟨fun h => lt_trans (by unfold uslCutoff; positivity) h, fun h => by
      have := hr'.cutoff d.g j
      rw [← S'.mass] at this
      exact this h⟩
  have hcut : ∀ j, isValid (sv.domains c.g).gridSize j → ∀ k, k ∈ Finset.Ico 0 ((tv.domains d.g).gridSize 2 : ℤ) → InnerLayer c.ker lo hi k →
      (uslCutoff < (grids c.g).mass (nodeHashOf (sv.domains c.g) j) ↔
        uslCutoff < (grids' d.g).mass (nodeHashOf (tv.domains d.g) (nodeAbove j k))) := by
    intro j hj k hk hi'
    rw [pos_iff, pos_iff', hgrid.mass j hj k hk hi', mul_pos_iff_of_pos_left hτ]
  obtain ⟨o, e, hh, pad, hpos, -, hdom, -⟩ := hr'.box d hd hds
  have hcell : 0 < (tv.domains d.g).cellSize := by rw [hdom]; exact hpos
  rw [hker, halpha, hdt] at hl'
  cases hb1 : st'.world.bodies c.p with
  | rigid r => rw [hb1] at hl; exact hl.elim
  | deformable t2 =>
    cases hb2 : ut'.world.bodies d.p with
    | rigid r => rw [hb2] at hl'; exact hl'.elim
    | deformable t3 =>
      rw [hb1] at hl
      rw [hb2] at hl'
      have E2 : t2 = { g2pBody sv.alpha st.dt (compute c.ker (sv.domains c.g) s2.position) none (grids c.g) (resetBody s2) with stress := t2.stress } := hl
      have E3 : t3 = { g2pBody sv.alpha st.dt (compute c.ker (tv.domains d.g) s3.position) none (grids' d.g) (resetBody s3) with
        stress := t3.stress } := hl'
      refine ⟨t2, t3, rfl, rfl, fun q hq => ?_, fun w hw0 hw hst hsh => ?_⟩
      · rw [E2, E3]
        exact slab_g2p hg h0 h1 hτ.ne' hR hgrid hcut sv.alpha st.dt q hq
      · have hw' : ∀ q, |(g2pBody sv.alpha st.dt (compute c.ker (tv.domains d.g) (resetBody s3).position) none (grids' d.g)
            (resetBody s3)).position q 2 - (resetBody s3).position q 2| ≤ w * (tv.domains d.g).cellSize := fun q => by
          have := hw q
          rw [E3] at this
          exact this
        have A := slab_after hg hcell h0 h1 hτ.ne' hR hgrid hcut sv.alpha st.dt hw0 hw'
        have hst' := hst
        rw [E3] at hst'
        rw [E2, E3]
        refine ⟨A.layers, A.place, A.velocity, A.load, A.mass, A.volume, A.volume0, fun q hq => ?_, A.F, hsh, A.planar⟩
        have := hst' q hq
        rw [E2] at this
        exact this

end
end Hydrax
