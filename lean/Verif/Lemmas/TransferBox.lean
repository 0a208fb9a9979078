import Verif.Lemmas.Transfer
import Verif.Model.Asflip

/-!
# Further facts about interaction lists (helper lemmas)
-/

set_option linter.unusedSectionVars false

namespace Hydrax

section
variable {K : Type*} [Field K] [LinearOrder K] [IsStrictOrderedRing K] [FloorRing K] {dim n : ℕ}

theorem relDist_le_two (ker : Kernel) (g : GridDomain K dim) (pos : Fin n → Fin dim → K)
    (hdim : dim ≤ 3) (i : Fin (n * windowSize ker dim)) (d : Fin dim) :
    -2 ≤ (compute ker g pos).relDist i ⟨d, by omega⟩ ∧
      (compute ker g pos).relDist i ⟨d, by omega⟩ ≤ 2 := by
  have e2 : (compute ker g pos).relDist i ⟨d, by omega⟩ = distVec ker g (pos i.divNat) i.modNat d :=
    pad3_lt (distVec ker g (pos i.divNat) i.modNat) ⟨d, by omega⟩ d.isLt
  rw [e2, distVec_apply]
  have hj : unravel dim (fun _ => winLen ker) i.modNat d < winLen ker :=
    unravel_lt dim (fun _ => winLen ker) i.modNat (by simp [windowSize]) d
  have ho := off_le ker ⟨_, hj⟩
  simp only at ho
  set q := off ker (unravel dim (fun _ => winLen ker) i.modNat d) with hq
  set t := basePos g (pos i.divNat) d with ht
  have hql : ((offLo ker : ℤ) : K) ≤ q := by exact_mod_cast ho.1
  have hqh : (q : K) ≤ (offHi ker : ℤ) := by exact_mod_cast ho.2
  push_cast
  have f1 := Int.floor_le t
  have f2 := Int.lt_floor_add_one t
  have f3 := Int.floor_le (t - 1 / 2)
  have f4 := Int.lt_floor_add_one (t - 1 / 2)
  cases ker <;> simp only [baseId, offLo, offHi] at * <;> push_cast at * <;>
    constructor <;> linarith

theorem slot_inactive (ker : Kernel) (g : GridDomain K dim) (hh : 0 < g.cellSize)
    (hg : g.cellSize * g.invCellSize = 1) (hdim : dim ≤ 3) (pos : Fin n → Fin dim → K)
    (i : Fin (n * windowSize ker dim)) (d : Fin dim)
    (hy : pos ((compute ker g pos).pointId i) d
        - g.cellSize * (compute ker g pos).relDist i ⟨d, by omega⟩ < g.origin d ∨
      g.origin d + ((g.gridSize d : K) - 1) * g.cellSize <
        pos ((compute ker g pos).pointId i) d
          - g.cellSize * (compute ker g pos).relDist i ⟨d, by omega⟩) :
    (compute ker g pos).shapeVal i = 0 ∧ (compute ker g pos).shapeGrad i = fun _ => 0 := by
  have e2 : (compute ker g pos).relDist i ⟨d, by omega⟩ = distVec ker g (pos i.divNat) i.modNat d :=
    pad3_lt (distVec ker g (pos i.divNat) i.modNat) ⟨d, by omega⟩ d.isLt
  have e3 : pos ((compute ker g pos).pointId i) d
      - g.cellSize * (compute ker g pos).relDist i ⟨d, by omega⟩
      = latticePos g (nodeIdx ker g (pos i.divNat) i.modNat) d := by
    rw [latticePos_nodeIdx ker g hg, ← e2]; rfl
  have hnv : ¬ isValid g.gridSize (nodeIdx ker g (pos i.divNat) i.modNat) := by
    intro hv
    rw [e3] at hy
    unfold latticePos at hy
    have h0 := (hv d).1
    have h1 := (hv d).2
    rcases hy with hy | hy
    · have : (0 : K) ≤ (nodeIdx ker g (pos i.divNat) i.modNat d : K) := by exact_mod_cast h0
      nlinarith [mul_nonneg this hh.le]
    · have h2 : (nodeIdx ker g (pos i.divNat) i.modNat d : K) ≤ (g.gridSize d : K) - 1 := by
        have : nodeIdx ker g (pos i.divNat) i.modNat d + 1 ≤ (g.gridSize d : ℤ) := h1
        have h3 : ((nodeIdx ker g (pos i.divNat) i.modNat d + 1 : ℤ) : K) ≤ ((g.gridSize d : ℤ) : K) :=
          Int.cast_le.mpr this
        push_cast at h3; linarith
      nlinarith [mul_le_mul_of_nonneg_right h2 hh.le]
  exact ⟨if_neg hnv, if_neg hnv⟩

/-- First moments of the stencils of points in the box vanish. -/
theorem sum_val_relDist (ker : Kernel) (o e : Fin dim → K) (h : K) (hh : 0 < h) (pad : ℕ)
    (hpad : 2 ≤ pad) (pos : Fin n → Fin dim → K) (hx : ∀ p, Spec.InBox o e (pos p)) (p : Fin n)
    (k : Fin 3) :
    pointSum (compute ker (GridDomain.create o e h pad) pos)
      (fun i => (compute ker (GridDomain.create o e h pad) pos).shapeVal i *
        (compute ker (GridDomain.create o e h pad) pos).relDist i k) p = 0 := by
  rw [← stencil_sum_val_dist (stencilInside_of_inBox ker o e h hh pad
    (le_trans (by cases ker <;> decide) hpad) (pos p) (hx p)) k]
  exact pointSum_compute ker (GridDomain.create o e h pad) pos
    (fun _ I => I.shapeVal * I.relDist k) p

end

section
variable {K : Type*} [Field K] [LinearOrder K] [IsStrictOrderedRing K] {dim n w N : ℕ}
  {c : InteractionCache K n w}

theorem aflip_p2g_mass (hc : GoodCache c N) (cell : K) (Bp : Fin n → Mat3 K) (s : MPState K dim n)
    (g : GridArrays K dim) (j : ℕ) :
    (aflipP2gBody cell c Bp s g).mass j = g.mass j + nodeMass c s.mass j := by
  simp only [aflipP2gBody, nodeMass, hc.mask_one, mul_one]

theorem aflip_p2g_moment (hc : GoodCache c N) (cell : K) (Bp : Fin n → Mat3 K) (s : MPState K dim n)
    (g : GridArrays K dim) (j : ℕ) (a : Fin dim) :
    (aflipP2gBody cell c Bp s g).moment j a = g.moment j a +
      scatterAdd c.nodeHash (fun i => c.shapeVal i * s.mass (c.pointId i) *
        (s.velocity (c.pointId i) a
          - trunc3 dim (fun r => ∑ k, Bp (c.pointId i) r k * distPhys cell c i k) a)) j := by
  simp only [aflipP2gBody, hc.mask_one, mul_one]

theorem aflip_p2g_force (hc : GoodCache c N) (cell : K) (Bp : Fin n → Mat3 K) (s : MPState K dim n)
    (g : GridArrays K dim) (j : ℕ) (a : Fin dim) :
    (aflipP2gBody cell c Bp s g).force j a =
      scatterAdd c.nodeHash (fun i => s.volume (c.pointId i) *
        internTerm dim (s.stress (c.pointId i)) (c.shapeGrad i) a
        + c.shapeVal i * s.force (c.pointId i) a) j := by
  simp only [aflipP2gBody, hc.mask_one, mul_one, one_mul, zero_add]

/-- The affine part carries no total momentum. -/
theorem aflip_moment_sum (hc : GoodCache c N)
    (hd : ∀ p k, pointSum c (fun i => c.shapeVal i * c.relDist i k) p = 0) (cell : K)
    (Bp : Fin n → Mat3 K) (s : MPState K dim n) (a : Fin dim) :
    ∑ i, c.shapeVal i * s.mass (c.pointId i) * (s.velocity (c.pointId i) a
          - trunc3 dim (fun r => ∑ k, Bp (c.pointId i) r k * distPhys cell c i k) a)
      = ∑ p, s.mass p * s.velocity p a := by
  have h1 : ∀ i, c.shapeVal i * s.mass (c.pointId i) * (s.velocity (c.pointId i) a
          - trunc3 dim (fun r => ∑ k, Bp (c.pointId i) r k * distPhys cell c i k) a)
      = c.shapeVal i * (s.mass (c.pointId i) * s.velocity (c.pointId i) a)
        - s.mass (c.pointId i) * (c.shapeVal i *
          trunc3 dim (fun r => ∑ k, Bp (c.pointId i) r k * distPhys cell c i k) a) := by
    intro i; ring
  simp only [h1]
  rw [Finset.sum_sub_distrib, sum_point_field hc (fun p => s.mass p * s.velocity p a)]
  have h2 : ∑ i, s.mass (c.pointId i) * (c.shapeVal i *
      trunc3 dim (fun r => ∑ k, Bp (c.pointId i) r k * distPhys cell c i k) a) = 0 := by
    unfold trunc3
    split_ifs with ha
    · simp only [Finset.mul_sum]
      rw [Finset.sum_comm]
      refine Finset.sum_eq_zero fun k _ => ?_
      have h3 := sum_by_point c (fun p => -(s.mass p * Bp p ⟨a, ha⟩ k * cell))
        (fun i => c.shapeVal i * c.relDist i k)
      simp only [hd, mul_zero, Finset.sum_const_zero] at h3
      rw [← h3]
      exact Finset.sum_congr rfl fun i _ => by unfold distPhys; ring
    · simp
  rw [h2, sub_zero]

end
end Hydrax
