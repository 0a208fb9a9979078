import Verif.Lemmas.TransferBox
import Verif.Lemmas.ExampleBody

/-!
# Properties C06, C08, C09: particle-to-grid transfer
-/

set_option linter.unusedSectionVars false

namespace Hydrax
open Spec

section
variable {K : Type*} [Field K] [LinearOrder K] [IsStrictOrderedRing K] [FloorRing K] {dim n : ℕ}

/-- **C06.** Two sets of points that differ only in the data of a point whose whole stencil lies off the
grid give exactly the same nodal mass, momentum and force. -/
theorem outside_point_no_effect (ker : Kernel) (g : GridDomain K dim) (hh : 0 < g.cellSize)
    (hg : g.cellSize * g.invCellSize = 1) (hdim : dim ≤ 3) (s s' : MPState K dim n)
    (hpos : s'.position = s.position) (q : Fin n)
    (hm : ∀ p, p ≠ q → s'.mass p = s.mass p) (hv : ∀ p, p ≠ q → s'.velocity p = s.velocity p)
    (hf : ∀ p, p ≠ q → s'.force p = s.force p) (hV : ∀ p, p ≠ q → s'.volume p = s.volume p)
    (hσ : ∀ p, p ≠ q → s'.stress p = s.stress p)
    (hout : ∃ d : Fin dim, s.position q d + 2 * g.cellSize < g.origin d ∨
      g.origin d + ((g.gridSize d : K) - 1) * g.cellSize < s.position q d - 2 * g.cellSize)
    (gr : GridArrays K dim) :
    p2gBody (compute ker g s'.position) s' gr = p2gBody (compute ker g s.position) s gr := by
  obtain ⟨d, hd⟩ := hout
  rw [hpos]
  have hz : ∀ i, (compute ker g s.position).pointId i = q →
      (compute ker g s.position).shapeVal i = 0 ∧
      (compute ker g s.position).shapeGrad i = fun _ => 0 := by
    intro i hi
    refine slot_inactive ker g hh hg hdim s.position i d ?_
    have hr := relDist_le_two ker g s.position hdim i d
    rw [hi]
    rcases hd with hd | hd
    · left; nlinarith [hr.1, mul_le_mul_of_nonneg_left hr.1 hh.le]
    · right; nlinarith [hr.2, mul_le_mul_of_nonneg_left hr.2 hh.le]
  have key : ∀ i, (compute ker g s.position).pointId i ≠ q ∨
      ((compute ker g s.position).shapeVal i = 0 ∧
      (compute ker g s.position).shapeGrad i = fun _ => 0) := fun i => by
    by_cases h : (compute ker g s.position).pointId i = q
    · exact .inr (hz i h)
    · exact .inl h
  simp only [p2gBody, GridArrays.mk.injEq, true_and]
  refine ⟨?_, ?_, ?_⟩
  · funext j
    congr 2
    funext i
    rcases key i with h | ⟨h, -⟩
    · rw [hm _ h]
    · simp [h]
  · funext j a
    congr 2
    funext i
    rcases key i with h | ⟨h, -⟩
    · rw [hm _ h, hv _ h]
    · simp [h]
  · funext j a
    congr 2
    funext i
    rcases key i with h | ⟨h, h'⟩
    · rw [hf _ h, hV _ h, hσ _ h]
    · simp [h, h', internTerm, trunc3]

/-- **C08** (USL transfer). Total nodal mass and momentum equal those of the points. -/
theorem p2g_conserves (hdim : dim = 2 ∨ dim = 3) (ker : Kernel) (o e : Fin dim → K) (h : K)
    (hh : 0 < h) (pad : ℕ) (hpad : 2 ≤ pad) (s : MPState K dim n)
    (hx : ∀ p, InBox o e (s.position p)) :
    let g := GridDomain.create o e h pad
    let gr := p2gBody (compute ker g s.position) s GridArrays.new
    ∑ j ∈ Finset.range g.numCells, gr.mass j = ∑ p, s.mass p ∧
      ∀ a, ∑ j ∈ Finset.range g.numCells, gr.moment j a = ∑ p, s.mass p * s.velocity p a := by
  intro g gr
  have hc := goodCache_of_inBox hdim ker o e h hh pad hpad s.position hx
  constructor
  · simp only [gr, g, p2g_mass hc]
    simp only [GridArrays.new, zero_add]
    exact sum_nodeMass hc s.mass
  · intro a
    simp only [gr, g, p2g_moment hc]
    simp only [GridArrays.new, zero_add]
    rw [sum_scatterAdd _ hc.hash_lt, ← sum_point_field hc (fun p => s.mass p * s.velocity p a)]
    exact Finset.sum_congr rfl fun i _ => by ring

/-- **C08** (ASFLIP transfer). The affine term does not change the totals, whatever the matrices. -/
theorem aflip_p2g_conserves (hdim : dim = 2 ∨ dim = 3) (ker : Kernel) (o e : Fin dim → K) (h : K)
    (hh : 0 < h) (pad : ℕ) (hpad : 2 ≤ pad) (s : MPState K dim n)
    (hx : ∀ p, InBox o e (s.position p)) (Bp : Fin n → Mat3 K) :
    let g := GridDomain.create o e h pad
    let gr := aflipP2gBody g.cellSize (compute ker g s.position) Bp s GridArrays.new
    ∑ j ∈ Finset.range g.numCells, gr.mass j = ∑ p, s.mass p ∧
      ∀ a, ∑ j ∈ Finset.range g.numCells, gr.moment j a = ∑ p, s.mass p * s.velocity p a := by
  intro g gr
  have hc := goodCache_of_inBox hdim ker o e h hh pad hpad s.position hx
  have hd := sum_val_relDist ker o e h hh pad hpad s.position hx
  constructor
  · simp only [gr, g, aflip_p2g_mass hc]
    simp only [GridArrays.new, zero_add]
    exact sum_nodeMass hc s.mass
  · intro a
    simp only [gr, g, aflip_p2g_moment hc]
    simp only [GridArrays.new, zero_add]
    rw [sum_scatterAdd _ hc.hash_lt, aflip_moment_sum hc hd]

/-- **C09** (equilibrium). Without external forces the nodal forces sum to zero. -/
theorem internal_forces_self_equilibrated (hdim : dim = 2 ∨ dim = 3) (ker : Kernel)
    (o e : Fin dim → K) (h : K) (hh : 0 < h) (pad : ℕ) (hpad : 2 ≤ pad) (s : MPState K dim n)
    (hx : ∀ p, InBox o e (s.position p)) (hf : s.force = fun _ _ => 0) (gr : GridArrays K dim)
    (a : Fin dim) :
    let g := GridDomain.create o e h pad
    ∑ j ∈ Finset.range g.numCells, (p2gBody (compute ker g s.position) s gr).force j a = 0 := by
  intro g
  have hc := goodCache_of_inBox hdim ker o e h hh pad hpad s.position hx
  simp only [g, p2g_force hc, hf, mul_zero, add_zero]
  rw [sum_scatterAdd _ hc.hash_lt, sum_internTerm hc]

/-- **C09** (with external point forces). The nodal forces sum to the total point force. -/
theorem nodal_forces_sum (hdim : dim = 2 ∨ dim = 3) (ker : Kernel)
    (o e : Fin dim → K) (h : K) (hh : 0 < h) (pad : ℕ) (hpad : 2 ≤ pad) (s : MPState K dim n)
    (hx : ∀ p, InBox o e (s.position p)) (gr : GridArrays K dim) (a : Fin dim) :
    let g := GridDomain.create o e h pad
    ∑ j ∈ Finset.range g.numCells, (p2gBody (compute ker g s.position) s gr).force j a
      = ∑ p, s.force p a := by
  intro g
  have hc := goodCache_of_inBox hdim ker o e h hh pad hpad s.position hx
  simp only [g, p2g_force hc]
  rw [sum_scatterAdd _ hc.hash_lt, Finset.sum_add_distrib, sum_internTerm hc, zero_add,
    sum_point_field hc (fun p => s.force p a)]

/-- **C09** (virtual work). For every nodal velocity field the power of the nodal forces is
`∑_p V_p σ_p : (∇v)_p`, `∇v` interpolated with the reported gradients. -/
theorem internal_force_power (hdim : dim = 2 ∨ dim = 3) (ker : Kernel)
    (o e : Fin dim → K) (h : K) (hh : 0 < h) (pad : ℕ) (hpad : 2 ≤ pad) (s : MPState K dim n)
    (hx : ∀ p, InBox o e (s.position p)) (hf : s.force = fun _ _ => 0) (gr : GridArrays K dim)
    (v : ℕ → Fin dim → K) :
    let g := GridDomain.create o e h pad
    let c := compute ker g s.position
    ∑ j ∈ Finset.range g.numCells, ∑ a, (p2gBody c s gr).force j a * v j a
      = ∑ p, s.volume p * ∑ a : Fin dim, ∑ b : Fin 3, s.stress p ⟨a, by omega⟩ b *
          ∑ i with c.pointId i = p, v (c.nodeHash i) a * c.shapeGrad i b := by
  intro g c
  have hc : GoodCache c g.numCells := goodCache_of_inBox hdim ker o e h hh pad hpad s.position hx
  rw [Finset.sum_comm]
  simp only [p2g_force hc, hf, mul_zero, add_zero]
  simp only [sum_scatterAdd_mul _ hc.hash_lt]
  have hr : ∀ p, s.volume p * ∑ a : Fin dim, ∑ b : Fin 3, s.stress p ⟨a, by omega⟩ b *
      ∑ i with c.pointId i = p, v (c.nodeHash i) a * c.shapeGrad i b
      = ∑ a : Fin dim, ∑ b : Fin 3, (s.volume p * s.stress p ⟨a, by omega⟩ b) *
        pointSum c (fun i => v (c.nodeHash i) a * c.shapeGrad i b) p := by
    intro p
    simp only [Finset.mul_sum, pointSum, mul_assoc]
  simp only [hr]
  refine Eq.trans ?_ Finset.sum_comm
  refine Finset.sum_congr rfl fun a _ => ?_
  refine Eq.trans ?_ Finset.sum_comm
  have hb : ∀ b : Fin 3, ∑ p, (s.volume p * s.stress p ⟨a, by omega⟩ b) *
        pointSum c (fun i => v (c.nodeHash i) a * c.shapeGrad i b) p
      = ∑ i, (s.volume (c.pointId i) * s.stress (c.pointId i) ⟨a, by omega⟩ b) *
        (v (c.nodeHash i) a * c.shapeGrad i b) := fun b =>
    (sum_by_point c (fun p => s.volume p * s.stress p ⟨a, by omega⟩ b) _).symm
  simp only [hb]
  refine Eq.trans ?_ Finset.sum_comm
  refine Finset.sum_congr rfl fun i _ => ?_
  have ha : a.val < 3 := by omega
  simp only [internTerm, trunc3, dif_pos ha, Finset.mul_sum, Finset.sum_mul]
  exact Finset.sum_congr rfl fun b _ => by ring

end

/-! Concrete cases meeting the hypotheses. -/

example := outside_point_no_effect .cubic (GridDomain.create (fun _ => (0:ℚ)) (fun _ => 1) (1/4))
  (by norm_num [GridDomain.create]) (by norm_num [GridDomain.create]) (by norm_num) exBodyFar
  { exBodyFar with mass := ![1, 7], velocity := ![![1, 2], ![5, 5]] } rfl 1
  (by intro p hp; fin_cases p; · rfl
      · exact absurd rfl hp)
  (by intro p hp; fin_cases p; · rfl
      · exact absurd rfl hp) (fun _ _ => rfl) (fun _ _ => rfl) (fun _ _ => rfl)
  ⟨0, .inr (by decide +kernel)⟩
example := p2g_conserves (.inl rfl) .cubic (fun _ => (0:ℚ)) (fun _ => 1) (1/4) (by norm_num) 2 le_rfl
  exBody exBody_inBox
example := aflip_p2g_conserves (.inl rfl) .quadratic (fun _ => (0:ℚ)) (fun _ => 1) (1/4) (by norm_num)
  2 le_rfl exBody exBody_inBox (fun _ => !![1, 2, 0; -1, 5, 0; 0, 0, 0])
example := internal_forces_self_equilibrated (.inl rfl) .linear (fun _ => (0:ℚ)) (fun _ => 1) (1/4)
  (by norm_num) 2 le_rfl exBody exBody_inBox rfl GridArrays.new 1
example := nodal_forces_sum (.inl rfl) .linear (fun _ => (0:ℚ)) (fun _ => 1) (1/4)
  (by norm_num) 2 le_rfl { exBody with force := ![![1, 2], ![3, 4]] } exBody_inBox GridArrays.new 1
example := internal_force_power (.inl rfl) .cubic (fun _ => (0:ℚ)) (fun _ => 1) (1/4)
  (by norm_num) 2 le_rfl exBody exBody_inBox rfl GridArrays.new (fun j a => (j : ℚ) * a)

end Hydrax
