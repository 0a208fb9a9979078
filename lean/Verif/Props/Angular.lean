import Verif.Props.Deformation
import Verif.Props.AflipMomentum
import Verif.Props.Transfer
import Verif.Props.Mapping

/-!
# Angular momentum (C81, C82)
-/

set_option linter.unusedSectionVars false

namespace Hydrax
open Spec

section
variable {K : Type*} [Field K] [LinearOrder K] [IsStrictOrderedRing K] [FloorRing K] {dim n : ℕ}

/-- Component `(a, b)` of the moment `x ∧ f`. -/
def Spec.wedge (x f : Fin dim → K) (a b : Fin dim) : K := x a * f b - x b * f a

/-! ### Sums over stencils -/

variable (hdim : dim = 2 ∨ dim = 3) (ker : Kernel) (o e : Fin dim → K) (h : K) (hh : 0 < h) (pad : ℕ) (hpad : 2 ≤ pad)
  (pos : Fin n → Fin dim → K)

include hh hpad in
theorem pointSum_position (p : Fin n) (hx : InBox o e (pos p)) (a : Fin dim) :
    let g := GridDomain.create o e h pad
    let c := compute ker g pos
    pointSum c (fun i => c.shapeVal i * g.positionStack (c.nodeHash i) a) p = pos p a := by
  intro g c
  have := affine_field_reproduced ker o e h hh pad hpad pos p hx 0 (fun k => if k = a then 1 else 0)
  simpa [pointSum] using this

include hh hpad hdim in
theorem pointSum_grad_position (p : Fin n) (hx : InBox o e (pos p))
    (hlin : ker = .linear → ∀ d, ∀ z : ℤ, (pos p d - o d) / h ≠ z) (k : Fin 3) (a : Fin dim) :
    let g := GridDomain.create o e h pad
    let c := compute ker g pos
    pointSum c (fun i => c.shapeGrad i k * g.positionStack (c.nodeHash i) a) p = if k.val = a.val then 1 else 0 := by
  intro g c
  by_cases hk : k.val < dim
  · have := affine_gradient_reproduced hdim ker o e h hh pad hpad pos p hx hlin 0 (fun d => if d = a then 1 else 0) ⟨k, hk⟩
    have he : ((⟨k, hk⟩ : Fin dim) = a) ↔ k.val = a.val := by rw [Fin.ext_iff]
    simp only [zero_add, ite_mul, one_mul, zero_mul, Finset.sum_ite_eq', Finset.mem_univ, if_true, he] at this
    exact this
  · have hz : ∀ i, c.shapeGrad i k * g.positionStack (c.nodeHash i) a = 0 := fun i => by
      rw [compute_grad_ge ker _ _ i k hk, zero_mul]
    rw [if_neg (by have := a.isLt; omega)]
    exact Finset.sum_eq_zero fun i _ => hz i

/-- The constant of the inertia tensor (C04). -/
def Spec.inertia (ker : Kernel) (h : K) : K := h ^ 2 / (match ker with | .quadratic => 4 | _ => 3)

include hh hpad hdim in
/-- Where a slot has weight, the distance used by the affine transfer is that from the point to the node. -/
theorem val_distPhys (i : Fin (n * windowSize ker dim)) (k : Fin dim) :
    let g := GridDomain.create o e h pad
    let c := compute ker g pos
    c.shapeVal i * distPhys h c i ⟨k, by omega⟩ = c.shapeVal i * (g.positionStack (c.nodeHash i) k - pos (c.pointId i) k) := by
  intro g c
  by_cases h0 : c.shapeVal i = 0
  · rw [h0, zero_mul, zero_mul]
  · rw [node_index_position ker g (create_inv o e h hh pad) (by omega) pos i h0 k]
    have : g.cellSize = h := rfl
    rw [this, distPhys]
    ring

theorem distPhys_ge (g : GridDomain K dim) (i : Fin (n * windowSize ker dim)) (k : Fin 3) (hk : ¬ k.val < dim) :
    distPhys h (compute ker g pos) i k = 0 := by
  have : (compute ker g pos).relDist i k = 0 := pad3_ge (distVec ker g (pos i.divNat) i.modNat) k hk
  rw [distPhys, this]; ring

include hh hpad hdim in
theorem pointSum_position_dist (hker : ker ≠ .linear) (hx : ∀ p, InBox o e (pos p)) (p : Fin n) (k : Fin 3) (a : Fin dim) :
    let g := GridDomain.create o e h pad
    let c := compute ker g pos
    pointSum c (fun i => c.shapeVal i * (g.positionStack (c.nodeHash i) a * distPhys h c i k)) p =
      if k.val = a.val then inertia ker h else 0 := by
  intro g c
  by_cases hk : k.val < dim
  · have h2 := second_moment_constant ker hker o e h hh pad hpad pos p (hx p) a ⟨k, hk⟩
    have h1 := sum_val_relDist ker o e h hh pad hpad pos hx p k
    have e1 : pointSum c (fun i => c.shapeVal i * (g.positionStack (c.nodeHash i) a * distPhys h c i k)) p =
        pointSum c (fun i => c.shapeVal i * ((g.positionStack (c.nodeHash i) a - pos p a) *
          (g.positionStack (c.nodeHash i) ⟨k, hk⟩ - pos p ⟨k, hk⟩))) p +
        (-(h * pos p a)) * pointSum c (fun i => c.shapeVal i * c.relDist i k) p := by
      rw [← pointSum_mul, ← pointSum_add]
      refine Finset.sum_congr rfl fun i hi => ?_
      have hip : c.pointId i = p := (Finset.mem_filter.mp hi).2
      have hv := val_distPhys hdim ker o e h hh pad hpad pos i ⟨k, hk⟩
      dsimp only at hv
      change c.shapeVal i * distPhys h c i k = c.shapeVal i * (g.positionStack (c.nodeHash i) ⟨k, hk⟩ - pos (c.pointId i) ⟨k, hk⟩)
        at hv
      rw [hip] at hv
      have hd : distPhys h c i k = -(h * c.relDist i k) := by rw [distPhys]; ring
      linear_combination (g.positionStack (c.nodeHash i) a - pos p a) * hv + c.shapeVal i * pos p a * hd
    rw [e1, h1, mul_zero, add_zero]
    refine Eq.trans h2 ?_
    have hq : (if a = (⟨k, hk⟩ : Fin dim) then inertia ker h else 0) = if k.val = a.val then inertia ker h else 0 := by
      simp only [Fin.ext_iff, eq_comm]
    rw [← hq]
    cases ker
    · exact absurd rfl hker
    · rfl
    · rfl
  · rw [if_neg (by have := a.isLt; omega)]
    refine Finset.sum_eq_zero fun i _ => ?_
    rw [distPhys_ge ker h pos g i k hk, mul_zero, mul_zero]

end

/-! ### C81: transfers and forces -/

section
variable {K : Type*} [Field K] [LinearOrder K] [IsStrictOrderedRing K] [FloorRing K] {dim n : ℕ}

/-- **C81** (USL transfer): the angular momentum of the nodes is that of the points. -/
theorem p2g_angular_momentum (hdim : dim = 2 ∨ dim = 3) (ker : Kernel) (o e : Fin dim → K) (h : K)
    (hh : 0 < h) (pad : ℕ) (hpad : 2 ≤ pad) (s : MPState K dim n) (hx : ∀ p, InBox o e (s.position p)) (a b : Fin dim) :
    let g := GridDomain.create o e h pad
    let gr := p2gBody (compute ker g s.position) s GridArrays.new
    ∑ j ∈ Finset.range g.numCells, wedge (g.positionStack j) (gr.moment j) a b =
      ∑ p, s.mass p * wedge (s.position p) (s.velocity p) a b := by
  intro g gr
  have hc := goodCache_of_inBox hdim ker o e h hh pad hpad s.position hx
  have key : ∀ a b, ∑ j ∈ Finset.range g.numCells, gr.moment j b * g.positionStack j a =
      ∑ p, s.mass p * s.velocity p b * s.position p a := by
    intro a b
    simp only [gr, g, p2g_moment hc]
    simp only [GridArrays.new, zero_add]
    rw [sum_scatterAdd_mul _ hc.hash_lt]
    have h1 := sum_by_point (compute ker g s.position) (fun p => s.mass p * s.velocity p b)
      (fun i => (compute ker g s.position).shapeVal i * g.positionStack ((compute ker g s.position).nodeHash i) a)
    have hP : ∀ p, pointSum (compute ker g s.position) (fun i => (compute ker g s.position).shapeVal i *
        g.positionStack ((compute ker g s.position).nodeHash i) a) p = s.position p a :=
      fun p => pointSum_position ker o e h hh pad hpad s.position p (hx p) a
    simp only [hP] at h1
    rw [← h1]
    exact Finset.sum_congr rfl fun i _ => by ring
  simp only [wedge, Finset.sum_sub_distrib, mul_sub]
  have k1 := key a b
  have k2 := key b a
  rw [Finset.sum_congr rfl fun j _ => mul_comm (g.positionStack j a) (gr.moment j b), k1,
    Finset.sum_congr rfl fun j _ => mul_comm (g.positionStack j b) (gr.moment j a), k2]
  congr 1 <;> exact Finset.sum_congr rfl fun p _ => by ring

/-- **C81** (ASFLIP transfer): the angular momentum of the nodes is that of the points, including the spin of their affine
matrices (which are minus the velocity gradient). -/
theorem aflip_p2g_angular_momentum (hdim : dim = 2 ∨ dim = 3) (ker : Kernel) (hker : ker ≠ .linear) (o e : Fin dim → K)
    (h : K) (hh : 0 < h) (pad : ℕ) (hpad : 2 ≤ pad) (s : MPState K dim n) (hx : ∀ p, InBox o e (s.position p))
    (Bp : Fin n → Mat3 K) (a b : Fin dim) :
    let g := GridDomain.create o e h pad
    let gr := aflipP2gBody g.cellSize (compute ker g s.position) Bp s GridArrays.new
    ∑ j ∈ Finset.range g.numCells, wedge (g.positionStack j) (gr.moment j) a b =
      ∑ p, s.mass p * (wedge (s.position p) (s.velocity p) a b +
        inertia ker h * (Bp p ⟨a, by omega⟩ ⟨b, by omega⟩ - Bp p ⟨b, by omega⟩ ⟨a, by omega⟩)) := by
  intro g gr
  set c := compute ker g s.position with hcdef
  have hc : GoodCache c g.numCells := goodCache_of_inBox hdim ker o e h hh pad hpad s.position hx
  have key : ∀ a b : Fin dim, ∑ j ∈ Finset.range g.numCells, gr.moment j b * g.positionStack j a =
      ∑ p, s.mass p * (s.velocity p b * s.position p a - inertia ker h * Bp p ⟨b, by omega⟩ ⟨a, by omega⟩) := by
    intro a b
    have hb3 : b.val < 3 := by omega
    have ha3 : a.val < 3 := by omega
    have hmom : ∀ j, gr.moment j b = scatterAdd c.nodeHash (fun i => c.shapeVal i * s.mass (c.pointId i) *
        (s.velocity (c.pointId i) b - ∑ k, Bp (c.pointId i) ⟨b, hb3⟩ k * distPhys h c i k)) j := by
      intro j
      have := aflip_p2g_moment hc g.cellSize Bp s GridArrays.new j b
      simp only [GridArrays.new, zero_add, trunc3, dif_pos hb3] at this
      exact this
    simp only [hmom]
    rw [sum_scatterAdd_mul _ hc.hash_lt]
    have h1 := sum_by_point c (fun p => s.mass p * s.velocity p b)
      (fun i => c.shapeVal i * g.positionStack (c.nodeHash i) a)
    have hP : ∀ p, pointSum c (fun i => c.shapeVal i * g.positionStack (c.nodeHash i) a) p = s.position p a :=
      fun p => pointSum_position ker o e h hh pad hpad s.position p (hx p) a
    simp only [hP] at h1
    have h2 : ∀ k : Fin 3, ∑ i, s.mass (c.pointId i) * Bp (c.pointId i) ⟨b, hb3⟩ k *
        (c.shapeVal i * (g.positionStack (c.nodeHash i) a * distPhys h c i k)) =
        ∑ p, s.mass p * Bp p ⟨b, hb3⟩ k * if k.val = a.val then inertia ker h else 0 := by
      intro k
      rw [sum_by_point c (fun p => s.mass p * Bp p ⟨b, hb3⟩ k)]
      exact Finset.sum_congr rfl fun p _ => by
        rw [pointSum_position_dist hdim ker o e h hh pad hpad s.position hker hx p k a]
    have h3 : ∑ i, s.mass (c.pointId i) * (c.shapeVal i * g.positionStack (c.nodeHash i) a) *
        ∑ k, Bp (c.pointId i) ⟨b, hb3⟩ k * distPhys h c i k =
        ∑ p, s.mass p * (inertia ker h * Bp p ⟨b, hb3⟩ ⟨a, ha3⟩) := by
      have e1 : ∀ i, s.mass (c.pointId i) * (c.shapeVal i * g.positionStack (c.nodeHash i) a) *
          ∑ k, Bp (c.pointId i) ⟨b, hb3⟩ k * distPhys h c i k =
          ∑ k, s.mass (c.pointId i) * Bp (c.pointId i) ⟨b, hb3⟩ k *
            (c.shapeVal i * (g.positionStack (c.nodeHash i) a * distPhys h c i k)) := by
        intro i
        rw [Finset.mul_sum]
        exact Finset.sum_congr rfl fun k _ => by ring
      rw [Finset.sum_congr rfl fun i _ => e1 i, Finset.sum_comm, Finset.sum_congr rfl fun k _ => h2 k, Finset.sum_comm]
      refine Finset.sum_congr rfl fun p _ => ?_
      rw [Finset.sum_eq_single (⟨a, ha3⟩ : Fin 3)]
      · rw [if_pos rfl]; ring
      · intro k _ hk
        rw [if_neg fun hv => hk (Fin.ext hv), mul_zero]
      · intro hn; exact absurd (Finset.mem_univ _) hn
    simp only [mul_sub, Finset.sum_sub_distrib]
    rw [← h3]
    have h1' : ∑ p, s.mass p * (s.velocity p b * s.position p a) = ∑ i, s.mass (c.pointId i) * s.velocity (c.pointId i) b *
        (c.shapeVal i * g.positionStack (c.nodeHash i) a) := by
      rw [h1]
      exact Finset.sum_congr rfl fun p _ => by ring
    rw [h1', ← Finset.sum_sub_distrib]
    exact Finset.sum_congr rfl fun i _ => by ring
  simp only [wedge, Finset.sum_sub_distrib]
  rw [Finset.sum_congr rfl fun j _ => mul_comm (g.positionStack j a) (gr.moment j b), key a b,
    Finset.sum_congr rfl fun j _ => mul_comm (g.positionStack j b) (gr.moment j a), key b a, ← Finset.sum_sub_distrib]
  exact Finset.sum_congr rfl fun p _ => by ring

/-- The nodal forces of both solvers exert the moment of the point forces, and internal forces of symmetric stresses none. -/
theorem force_moment {w : ℕ} {c : InteractionCache K n w} {N : ℕ} (X : ℕ → Fin dim → K)
    (x : Fin n → Fin dim → K) (V : Fin n → K) (σ : Fin n → Mat3 K) (f : Fin n → Fin dim → K) (hd : dim ≤ 3)
    (hsym : ∀ p i j, σ p i j = σ p j i)
    (hl : ∀ i, c.nodeHash i < N)
    (hX : ∀ p a, pointSum c (fun i => c.shapeVal i * X (c.nodeHash i) a) p = x p a)
    (hG : ∀ p (k : Fin 3) (a : Fin dim), pointSum c (fun i => c.shapeGrad i k * X (c.nodeHash i) a) p =
      if k.val = a.val then 1 else 0) (a b : Fin dim) :
    ∑ j ∈ Finset.range N, wedge (X j) (fun b => scatterAdd c.nodeHash (fun i => V (c.pointId i) *
        internTerm dim (σ (c.pointId i)) (c.shapeGrad i) b + c.shapeVal i * f (c.pointId i) b) j) a b =
      ∑ p, wedge (x p) (f p) a b := by
  have key : ∀ a b : Fin dim, ∑ j ∈ Finset.range N, scatterAdd c.nodeHash (fun i => V (c.pointId i) *
        internTerm dim (σ (c.pointId i)) (c.shapeGrad i) b + c.shapeVal i * f (c.pointId i) b) j * X j a =
      ∑ p, (V p * σ p ⟨b, by omega⟩ ⟨a, by omega⟩ + f p b * x p a) := by
    intro a b
    have hb3 : b.val < 3 := by omega
    have ha3 : a.val < 3 := by omega
    rw [sum_scatterAdd_mul _ hl]
    have h1 := sum_by_point c (fun p => f p b) (fun i => c.shapeVal i * X (c.nodeHash i) a)
    simp only [hX] at h1
    have h2 : ∀ k : Fin 3, ∑ i, V (c.pointId i) * σ (c.pointId i) ⟨b, hb3⟩ k * (c.shapeGrad i k * X (c.nodeHash i) a) =
        ∑ p, V p * σ p ⟨b, hb3⟩ k * if k.val = a.val then 1 else 0 := by
      intro k
      rw [sum_by_point c (fun p => V p * σ p ⟨b, hb3⟩ k)]
      simp only [hG]
    have h3 : ∑ i, V (c.pointId i) * (∑ k, σ (c.pointId i) ⟨b, hb3⟩ k * c.shapeGrad i k) * X (c.nodeHash i) a =
        ∑ p, V p * σ p ⟨b, hb3⟩ ⟨a, ha3⟩ := by
      have e1 : ∀ i, V (c.pointId i) * (∑ k, σ (c.pointId i) ⟨b, hb3⟩ k * c.shapeGrad i k) * X (c.nodeHash i) a =
          ∑ k, V (c.pointId i) * σ (c.pointId i) ⟨b, hb3⟩ k * (c.shapeGrad i k * X (c.nodeHash i) a) := by
        intro i
        rw [Finset.mul_sum, Finset.sum_mul]
        exact Finset.sum_congr rfl fun k _ => by ring
      rw [Finset.sum_congr rfl fun i _ => e1 i, Finset.sum_comm, Finset.sum_congr rfl fun k _ => h2 k, Finset.sum_comm]
      refine Finset.sum_congr rfl fun p _ => ?_
      rw [Finset.sum_eq_single (⟨a, ha3⟩ : Fin 3)]
      · rw [if_pos rfl, mul_one]
      · intro k _ hk
        rw [if_neg fun hv => hk (Fin.ext hv), mul_zero]
      · intro hn; exact absurd (Finset.mem_univ _) hn
    simp only [internTerm, trunc3, dif_pos hb3]
    rw [Finset.sum_add_distrib, ← h3, ← h1, ← Finset.sum_add_distrib]
    exact Finset.sum_congr rfl fun i _ => by ring
  simp only [wedge, Finset.sum_sub_distrib]
  rw [Finset.sum_congr rfl fun j _ => mul_comm (X j a) _, key a b, Finset.sum_congr rfl fun j _ => mul_comm (X j b) _, key b a,
    ← Finset.sum_sub_distrib, ← Finset.sum_sub_distrib]
  exact Finset.sum_congr rfl fun p _ => by rw [hsym p ⟨b, by omega⟩ ⟨a, by omega⟩]; ring

/-- **C82**: nodal forces (USL and ASFLIP) exert exactly the moment of the external point forces; internal forces of
symmetric stresses exert none. -/
theorem nodal_forces_moment (hdim : dim = 2 ∨ dim = 3) (ker : Kernel) (o e : Fin dim → K) (h : K) (hh : 0 < h) (pad : ℕ)
    (hpad : 2 ≤ pad) (s : MPState K dim n) (hx : ∀ p, InBox o e (s.position p))
    (hlin : ker = .linear → ∀ p d, ∀ z : ℤ, (s.position p d - o d) / h ≠ z) (hsym : ∀ p i j, s.stress p i j = s.stress p j i)
    (gr : GridArrays K dim) (Bp : Fin n → Mat3 K) (a b : Fin dim) :
    let g := GridDomain.create o e h pad
    ∑ j ∈ Finset.range g.numCells, wedge (g.positionStack j) ((p2gBody (compute ker g s.position) s gr).force j) a b =
      ∑ p, wedge (s.position p) (s.force p) a b ∧
    ∑ j ∈ Finset.range g.numCells,
        wedge (g.positionStack j) ((aflipP2gBody g.cellSize (compute ker g s.position) Bp s gr).force j) a b =
      ∑ p, wedge (s.position p) (s.force p) a b := by
  intro g
  have hc : GoodCache (compute ker g s.position) g.numCells := goodCache_of_inBox hdim ker o e h hh pad hpad s.position hx
  have hm := force_moment g.positionStack s.position s.volume s.stress s.force (by omega) hsym hc.hash_lt
    (fun p a => pointSum_position ker o e h hh pad hpad s.position p (hx p) a)
    (fun p k a => pointSum_grad_position hdim ker o e h hh pad hpad s.position p (hx p) (fun hk => hlin hk p) k a) a b
  constructor
  · rw [← hm]
    refine Finset.sum_congr rfl fun j _ => ?_
    congr 1
    funext b
    exact p2g_force hc s gr j b
  · rw [← hm]
    refine Finset.sum_congr rfl fun j _ => ?_
    congr 1
    funext b
    exact aflip_p2g_force hc _ Bp s gr j b

/-- **C82** (grid phase of a USL step): momentum transfer, gravity and integration change the angular momentum exactly by
the moment of gravity and of the point forces. -/
theorem usl_grid_angular_momentum (hdim : dim = 2 ∨ dim = 3) (ker : Kernel) (o e : Fin dim → K) (h : K) (hh : 0 < h)
    (pad : ℕ) (hpad : 2 ≤ pad) (s : MPState K dim n) (hx : ∀ p, InBox o e (s.position p))
    (hlin : ker = .linear → ∀ p d, ∀ z : ℤ, (s.position p d - o d) / h ≠ z) (hsym : ∀ p i j, s.stress p i j = s.stress p j i)
    (grav : Fin dim → K) (dt : K) (a b : Fin dim) :
    let g := GridDomain.create o e h pad
    let gr := integrateBody dt (gravityGrid grav (p2gBody (compute ker g s.position) s GridArrays.new))
    ∑ j ∈ Finset.range g.numCells, wedge (g.positionStack j) (gr.momentNt j) a b =
      ∑ p, (s.mass p * wedge (s.position p) (s.velocity p) a b +
        dt * wedge (s.position p) (fun k => s.force p k + s.mass p * grav k) a b) := by
  intro g gr
  have hc : GoodCache (compute ker g s.position) g.numCells := goodCache_of_inBox hdim ker o e h hh pad hpad s.position hx
  have h1 := p2g_angular_momentum hdim ker o e h hh pad hpad s hx a b
  have h2 := (nodal_forces_moment hdim ker o e h hh pad hpad s hx hlin hsym GridArrays.new (fun _ => 0) a b).1
  have h3 : ∀ a, ∑ j ∈ Finset.range g.numCells,
      (p2gBody (compute ker g s.position) s GridArrays.new).mass j * g.positionStack j a = ∑ p, s.mass p * s.position p a := by
    intro a
    simp only [p2g_mass hc]
    simp only [GridArrays.new, zero_add]
    have := sum_mass_interp hc s.mass (fun j => g.positionStack j a)
    rw [← this]
    exact Finset.sum_congr rfl fun p _ => by
      rw [pointSum_position ker o e h hh pad hpad s.position p (hx p) a]
  have e1 : ∀ j, wedge (g.positionStack j) (gr.momentNt j) a b =
      wedge (g.positionStack j) ((p2gBody (compute ker g s.position) s GridArrays.new).moment j) a b +
      dt * wedge (g.positionStack j) ((p2gBody (compute ker g s.position) s GridArrays.new).force j) a b +
      dt * (((p2gBody (compute ker g s.position) s GridArrays.new).mass j * g.positionStack j a) * grav b -
        ((p2gBody (compute ker g s.position) s GridArrays.new).mass j * g.positionStack j b) * grav a) := by
    intro j
    simp only [gr, integrateBody, gravityGrid, wedge]
    ring
  rw [Finset.sum_congr rfl fun j _ => e1 j, Finset.sum_add_distrib, Finset.sum_add_distrib, ← Finset.mul_sum, ← Finset.mul_sum,
    Finset.sum_sub_distrib, ← Finset.sum_mul, ← Finset.sum_mul, h1, h2, h3 a, h3 b, Finset.sum_mul, Finset.sum_mul,
    ← Finset.sum_sub_distrib, Finset.mul_sum, Finset.mul_sum, ← Finset.sum_add_distrib, ← Finset.sum_add_distrib]
  exact Finset.sum_congr rfl fun p _ => by simp only [wedge]; ring

/-! ### C82: gather of the ASFLIP solver -/

/-- Linear momentum moments of the nodes, seen from the points: masses come from the transfer, nodes at or below the cutoff
carry no momentum. -/
theorem node_sum_by_point {w : ℕ} {c : InteractionCache K n w} {N : ℕ} (hc : GoodCache c N) (m : Fin n → K) (cut : K)
    (hcut : 0 ≤ cut) (M mom φ : ℕ → K) (hM : ∀ j < N, M j = nodeMass c m j)
    (h0 : ∀ j < N, M j ≤ cut → mom j = 0) :
    ∑ j ∈ Finset.range N, mom j * φ j =
      ∑ p, m p * pointSum c (fun i => c.shapeVal i * (nodeVel cut (M (c.nodeHash i)) (mom (c.nodeHash i)) * φ (c.nodeHash i))) p := by
  have h1 := sum_mass_interp hc m (fun j => nodeVel cut (M j) (mom j) * φ j)
  rw [h1]
  refine Finset.sum_congr rfl fun j hj => ?_
  have hj := Finset.mem_range.mp hj
  rw [← hM j hj]
  by_cases hm : cut < M j
  · have : M j ≠ 0 := (lt_of_le_of_lt hcut hm).ne'
    unfold nodeVel
    rw [if_pos hm, if_pos hm]
    field_simp
  · rw [h0 j hj (not_lt.mp hm)]
    unfold nodeVel
    rw [if_neg hm]
    ring

/-- **C82** (ASFLIP gather): without FLIP blending and below the speed limit, points that gather an affine velocity field
have exactly the angular momentum of the nodes, spin included. The full claim (any nodal velocities) fails:
`aflip_g2p_angular_fails`. -/
theorem aflip_g2p_angular_partial (hdim : dim = 2 ∨ dim = 3) (ker : Kernel) (hker : ker ≠ .linear) (o e : Fin dim → K)
    (h : K) (hh : 0 < h) (pad : ℕ) (hpad : 2 ≤ pad) (s : MPState K dim n) (hx : ∀ p, InBox o e (s.position p))
    (sqrt : K → K) (pr : AflipParams K) (hcut : 0 ≤ pr.cutoff) (halpha : pr.alpha = 0) (dt : K)
    (gr : GridArrays K dim)
    (hmass : ∀ j < (GridDomain.create o e h pad).numCells, gr.mass j =
      (p2gBody (compute ker (GridDomain.create o e h pad) s.position) s GridArrays.new).mass j)
    (h0 : ∀ j < (GridDomain.create o e h pad).numCells, gr.mass j ≤ pr.cutoff → ∀ a, gr.momentNt j a = 0)
    (v : Fin dim → K) (A : Fin dim → Fin dim → K)
    (hA : ∀ p, AffineNodes pr.cutoff (GridDomain.create o e h pad)
      (compute ker (GridDomain.create o e h pad) s.position) gr p v A)
    (hslow : ∀ p, clampFactor sqrt pr.cfl h dt (fun a => v a + ∑ k, A a k * s.position p k) = 1)
    (r : MPState K dim n × (Fin n → Mat3 K))
    (hr : aflipG2pBody sqrt pr h dt (compute ker (GridDomain.create o e h pad) s.position) gr s = .ok r) (a b : Fin dim) :
    ∑ p, r.1.mass p * (wedge (r.1.position p) (r.1.velocity p) a b +
        inertia ker h * (r.2 p ⟨a, by omega⟩ ⟨b, by omega⟩ - r.2 p ⟨b, by omega⟩ ⟨a, by omega⟩)) =
      ∑ j ∈ Finset.range (GridDomain.create o e h pad).numCells,
        wedge ((GridDomain.create o e h pad).positionStack j) (gr.momentNt j) a b := by
  set g := GridDomain.create o e h pad with hg
  set c := compute ker g s.position with hcdef
  have hc : GoodCache c g.numCells := goodCache_of_inBox hdim ker o e h hh pad hpad s.position hx
  have hlin : ∀ p, ker = .linear → ∀ d, ∀ z : ℤ, (s.position p d - o d) / h ≠ z := fun p hl => absurd hl hker
  have hr' := aflipG2pBody_ok hr
  have hvel : ∀ p a, (aflipGather pr.cutoff c gr).pVelNt p a = v a + ∑ k, A a k * s.position p k := fun p a =>
    affine_gather_val ker o e h hh pad hpad s.position p (hx p) pr.cutoff hcut gr v A (hA p) a
  have hBp : ∀ p (a b : Fin dim), r.2 p ⟨a, by omega⟩ ⟨b, by omega⟩ = -A a b := by
    intro p a b
    rw [← affine_gather hdim ker o e h hh pad hpad s.position p (hx p) (hlin p) pr.cutoff hcut gr v A (hA p) a b, hr']
    change pointSum c _ p = _
    unfold pointSum
    rw [← Finset.sum_neg_distrib]
    refine Finset.sum_congr rfl fun q _ => ?_
    simp only [pad3_lt _ (⟨a, by omega⟩ : Fin 3) a.isLt]
    ring
  have hdyn : ∀ p, dynAlpha pr c gr s p = 0 := by
    intro p
    unfold dynAlpha
    rw [halpha]
    simp
  have hv : ∀ p a, r.1.velocity p a = v a + ∑ k, A a k * s.position p k := by
    intro p a
    rw [hr']
    simp only [aflipG2pMls, hdyn, zero_mul, add_zero, hvel]
    rw [hslow p, mul_one]
  have hp : ∀ p a, r.1.position p a = s.position p a + dt * (v a + ∑ k, A a k * s.position p k) := by
    intro p a
    rw [hr']
    simp only [aflipG2pMls, halpha, zero_mul, add_zero, hvel]
  have hm : r.1.mass = s.mass := by rw [hr']; rfl
  have hmass' : ∀ j < g.numCells, gr.mass j = nodeMass c s.mass j := by
    intro j hj
    rw [hmass j hj, p2g_mass hc]
    simp only [GridArrays.new, zero_add]
  -- the nodes seen from the points
  have key : ∀ a b : Fin dim, ∑ j ∈ Finset.range g.numCells, gr.momentNt j b * g.positionStack j a =
      ∑ p, s.mass p * ((v b + ∑ k, A b k * s.position p k) * s.position p a + A b a * inertia ker h) := by
    intro a b
    rw [node_sum_by_point hc s.mass pr.cutoff hcut gr.mass (fun j => gr.momentNt j b) (fun j => g.positionStack j a) hmass'
      (fun j hj hl => h0 j hj hl b)]
    refine Finset.sum_congr rfl fun p _ => ?_
    congr 1
    have e1 : pointSum c (fun i => c.shapeVal i * (nodeVel pr.cutoff (gr.mass (c.nodeHash i)) (gr.momentNt (c.nodeHash i) b) *
        g.positionStack (c.nodeHash i) a)) p =
        pointSum c (fun i => (v b + ∑ k, A b k * s.position p k) * (c.shapeVal i * g.positionStack (c.nodeHash i) a) +
          ∑ k : Fin dim, A b k * (c.shapeVal i * (g.positionStack (c.nodeHash i) a * distPhys h c i ⟨k, by omega⟩))) p := by
      refine Finset.sum_congr rfl fun i hi => ?_
      have hip : c.pointId i = p := (Finset.mem_filter.mp hi).2
      by_cases hw : c.shapeVal i = 0
      · simp [hw]
      · have hmi := (hA p).2 i hip hw
        have hv1 : nodeVel pr.cutoff (gr.mass (c.nodeHash i)) (gr.momentNt (c.nodeHash i) b) =
            v b + ∑ k, A b k * g.positionStack (c.nodeHash i) k := by
          rw [(hA p).1 _ hmi b]
          unfold nodeVel
          rw [if_pos hmi, if_pos hmi, mul_div_cancel_left₀ _ (lt_of_le_of_lt hcut hmi).ne']
        have hd : ∀ k : Fin dim, c.shapeVal i * distPhys h c i ⟨k, by omega⟩ =
            c.shapeVal i * (g.positionStack (c.nodeHash i) k - s.position p k) := by
          intro k
          have := val_distPhys hdim ker o e h hh pad hpad s.position i k
          rw [← hip]
          exact this
        have hk : ∀ k : Fin dim, A b k * (c.shapeVal i * (g.positionStack (c.nodeHash i) a * distPhys h c i ⟨k, by omega⟩)) =
            (A b k * g.positionStack (c.nodeHash i) k - A b k * s.position p k) *
              (c.shapeVal i * g.positionStack (c.nodeHash i) a) := by
          intro k
          linear_combination A b k * g.positionStack (c.nodeHash i) a * hd k
        beta_reduce
        rw [hv1, Finset.sum_congr rfl fun k _ => hk k, ← Finset.sum_mul, Finset.sum_sub_distrib]
        ring
    rw [e1, pointSum_add, pointSum_mul, pointSum_position ker o e h hh pad hpad s.position p (hx p) a]
    congr 1
    unfold pointSum
    rw [Finset.sum_comm, Finset.sum_eq_single a]
    · rw [← Finset.mul_sum]
      have := pointSum_position_dist hdim ker o e h hh pad hpad s.position hker hx p ⟨a, by omega⟩ a
      rw [if_pos rfl] at this
      exact congrArg _ this
    · intro k _ hk
      rw [← Finset.mul_sum]
      have := pointSum_position_dist hdim ker o e h hh pad hpad s.position hker hx p ⟨k, by omega⟩ a
      rw [if_neg fun hv => hk (Fin.ext hv)] at this
      rw [show (∑ i with c.pointId i = p, _) = (0 : K) from this, mul_zero]
    · intro hn; exact absurd (Finset.mem_univ _) hn
  simp only [wedge, Finset.sum_sub_distrib]
  rw [Finset.sum_congr rfl fun j _ => mul_comm (g.positionStack j a) (gr.momentNt j b), key a b,
    Finset.sum_congr rfl fun j _ => mul_comm (g.positionStack j b) (gr.momentNt j a), key b a, ← Finset.sum_sub_distrib]
  refine Finset.sum_congr rfl fun p _ => ?_
  rw [hBp p a b, hBp p b a, hp, hp, hv, hv, hm]
  ring

/-- **C82**: an affine motion (rigid rotation included) of a stress-free body under gravity survives an ASFLIP step exactly
with any blending factors: affine matrices unchanged, velocities changed by gravity only, positions advanced with the new
velocities. -/
theorem aflip_affine_motion_kept (hdim : dim = 2 ∨ dim = 3) (ker : Kernel) (o e : Fin dim → K)
    (h : K) (hh : 0 < h) (pad : ℕ) (hpad : 2 ≤ pad) (s : MPState K dim n) (hx : ∀ p, InBox o e (s.position p))
    (hlin : ker = .linear → ∀ p d, ∀ z : ℤ, (s.position p d - o d) / h ≠ z)
    (hσ : s.stress = fun _ => 0) (hf : s.force = fun _ _ => 0)
    (v : Fin dim → K) (A : Fin dim → Fin dim → K) (hv : ∀ p a, s.velocity p a = v a + ∑ k, A a k * s.position p k)
    (Bp : Fin n → Mat3 K) (hB : ∀ p (a b : Fin dim), Bp p ⟨a, by omega⟩ ⟨b, by omega⟩ = -A a b)
    (sqrt : K → K) (pr : AflipParams K) (hcut : 0 ≤ pr.cutoff) (grav : Fin dim → K) (dt : K)
    (hheavy : ∀ i, (compute ker (GridDomain.create o e h pad) s.position).shapeVal i ≠ 0 → pr.cutoff <
      (p2gBody (compute ker (GridDomain.create o e h pad) s.position) s GridArrays.new).mass
        ((compute ker (GridDomain.create o e h pad) s.position).nodeHash i))
    (hslow : ∀ p, clampFactor sqrt pr.cfl h dt (fun a => s.velocity p a + dt * grav a) = 1)
    (r : MPState K dim n × (Fin n → Mat3 K))
    (hr : aflipG2pBody sqrt pr h dt (compute ker (GridDomain.create o e h pad) s.position)
      (integrateBody dt (gravityGrid grav (aflipP2gBody h (compute ker (GridDomain.create o e h pad) s.position) Bp s
        GridArrays.new))) s = .ok r) (p : Fin n) :
    (∀ a, r.1.velocity p a = s.velocity p a + dt * grav a) ∧
    (∀ a, r.1.position p a = s.position p a + dt * (s.velocity p a + dt * grav a)) ∧
    ∀ a b : Fin dim, r.2 p ⟨a, by omega⟩ ⟨b, by omega⟩ = Bp p ⟨a, by omega⟩ ⟨b, by omega⟩ := by
  set g := GridDomain.create o e h pad with hg
  set c := compute ker g s.position with hcdef
  have hc : GoodCache c g.numCells := goodCache_of_inBox hdim ker o e h hh pad hpad s.position hx
  set g1 := aflipP2gBody h c Bp s GridArrays.new with hg1
  set gr := integrateBody dt (gravityGrid grav g1) with hgr
  have hmass : ∀ j, gr.mass j = nodeMass c s.mass j := by
    intro j
    have : gr.mass j = g1.mass j := rfl
    rw [this, hg1, aflip_p2g_mass hc]
    simp only [GridArrays.new, zero_add]
  have hmass2 : ∀ j, gr.mass j = (p2gBody c s GridArrays.new).mass j := by
    intro j
    rw [hmass, p2g_mass hc]
    simp only [GridArrays.new, zero_add]
  -- affine momentum on the nodes
  have hmom : ∀ j a, g1.moment j a = gr.mass j * (v a + ∑ k, A a k * g.positionStack j k) := by
    intro j a
    have ha3 : a.val < 3 := by omega
    rw [hmass, hg1, aflip_p2g_moment hc]
    simp only [GridArrays.new, zero_add, trunc3, dif_pos ha3, scatterAdd, nodeMass]
    rw [Finset.sum_mul]
    refine Finset.sum_congr rfl fun i _ => ?_
    by_cases hij : c.nodeHash i = j
    swap
    · rw [if_neg hij, if_neg hij, zero_mul]
    rw [if_pos hij, if_pos hij]
    have hd : ∀ k : Fin dim, c.shapeVal i * distPhys h c i ⟨k, by omega⟩ =
        c.shapeVal i * (g.positionStack j k - s.position (c.pointId i) k) := by
      intro k
      have := val_distPhys hdim ker o e h hh pad hpad s.position i k
      rw [← hij]
      exact this
    have hs : c.shapeVal i * ∑ k, Bp (c.pointId i) ⟨a, ha3⟩ k * distPhys h c i k =
        -(c.shapeVal i * (∑ k, A a k * g.positionStack j k - ∑ k, A a k * s.position (c.pointId i) k)) := by
      have e3 : ∑ k, Bp (c.pointId i) ⟨a, ha3⟩ k * distPhys h c i k =
          ∑ k : Fin dim, -A a k * distPhys h c i ⟨k, by omega⟩ := by
        have e4 : ∀ k : Fin 3, Bp (c.pointId i) ⟨a, ha3⟩ k * distPhys h c i k =
            if hk : k.val < dim then -A a ⟨k, hk⟩ * distPhys h c i k else 0 := by
          intro k
          by_cases hk : k.val < dim
          · rw [dif_pos hk, ← hB (c.pointId i) a ⟨k, hk⟩]
          · rw [dif_neg hk, distPhys_ge ker h s.position g i k hk, mul_zero]
        rw [Finset.sum_congr rfl fun k _ => e4 k]
        rcases hdim with rfl | rfl
        · simp [Fin.sum_univ_succ]
          ring
        · simp [Fin.sum_univ_succ]
      rw [e3, ← Finset.sum_sub_distrib, Finset.mul_sum, Finset.mul_sum, ← Finset.sum_neg_distrib]
      exact Finset.sum_congr rfl fun k _ => by linear_combination -A a k * hd k
    rw [hv]
    linear_combination -s.mass (c.pointId i) * hs
  have hforce : ∀ j a, g1.force j a = 0 := by
    intro j a
    rw [hg1, aflip_p2g_force hc, hσ, hf]
    unfold scatterAdd
    refine Finset.sum_eq_zero fun i _ => ?_
    simp [internTerm, trunc3]
  have hmomNt : ∀ j a, gr.momentNt j a = gr.mass j * ((v a + dt * grav a) + ∑ k, A a k * g.positionStack j k) := by
    intro j a
    have : gr.momentNt j a = g1.moment j a + (g1.force j a + g1.mass j * grav a) * dt := rfl
    have hm1 : g1.mass j = gr.mass j := rfl
    rw [this, hforce, hmom, hm1]
    ring
  have hsup : ∀ i, c.shapeVal i ≠ 0 → pr.cutoff < gr.mass (c.nodeHash i) := by
    intro i hi
    rw [hmass2]
    exact hheavy i hi
  have hA : AffineNodes pr.cutoff g c gr p (fun a => v a + dt * grav a) A :=
    ⟨fun j _ a => hmomNt j a, fun i _ hi => hsup i hi⟩
  have hA0 : AffineNodes pr.cutoff g c { gr with momentNt := gr.moment } p v A :=
    ⟨fun j _ a => hmom j a, fun i _ hi => hsup i hi⟩
  have hr' := aflipG2pBody_ok hr
  have hvNt : ∀ a, (aflipGather pr.cutoff c gr).pVelNt p a = s.velocity p a + dt * grav a := by
    intro a
    rw [hv]
    refine Eq.trans (affine_gather_val ker o e h hh pad hpad s.position p (hx p) pr.cutoff hcut gr _ A hA a) ?_
    ring
  have hvOld : ∀ a, (aflipGather pr.cutoff c gr).pVel p a = s.velocity p a := by
    intro a
    rw [hv]
    exact affine_gather_val ker o e h hh pad hpad s.position p (hx p) pr.cutoff hcut _ _ A hA0 a
  refine ⟨fun a => ?_, fun a => ?_, fun a b => ?_⟩
  · rw [hr']
    simp only [aflipG2pMls, hvNt, hvOld, sub_self, mul_zero, add_zero]
    rw [hslow p, mul_one]
  · rw [hr']
    simp only [aflipG2pMls, hvNt, hvOld, sub_self, mul_zero, add_zero]
  · rw [hB, ← affine_gather hdim ker o e h hh pad hpad s.position p (hx p) (fun hk => hlin hk p) pr.cutoff hcut gr _ A hA a b,
      hr']
    change pointSum c _ p = _
    unfold pointSum
    rw [← Finset.sum_neg_distrib]
    refine Finset.sum_congr rfl fun q _ => ?_
    simp only [pad3_lt _ (⟨a, by omega⟩ : Fin 3) a.isLt]
    ring

end
/-! ### Examples and the refutation -/

/-- C81/C82 on the example body (symmetric stress) with every kernel. -/
example (ker : Kernel) :
    let g := GridDomain.create (fun _ : Fin 2 => (0 : ℚ)) (fun _ => 1) (1 / 2) 2
    let gr := p2gBody (compute ker g exBody.position) exBody GridArrays.new
    ∑ j ∈ Finset.range g.numCells, wedge (g.positionStack j) (gr.moment j) 0 1 = 34 / 15 := by
  intro g gr
  have := p2g_angular_momentum (Or.inl rfl) ker (fun _ => (0 : ℚ)) (fun _ => 1) (1 / 2) (by norm_num) 2 le_rfl exBody
    exBody_inBox 0 1
  refine this.trans ?_
  decide +kernel

/-- The angular momentum (with spin) of a plane body. -/
def exAngular (s : MPState ℚ 2 2) (B : Fin 2 → Mat3 ℚ) : ℚ :=
  ∑ p, s.mass p * (wedge (s.position p) (s.velocity p) 0 1 + inertia .quadratic (1 / 2) * (B p 0 1 - B p 1 0))

/-- The grid of the examples. -/
def exAngGrid : GridDomain ℚ 2 := GridDomain.create (fun _ => 0) (fun _ => 1) (1 / 2) 2

/-- Pure PIC transfer without a speed limit within reach. -/
def exAngParams : AflipParams ℚ := { exAflipParams with alpha := 0, cfl := 10 ^ 6 }

/-- The example body without stress. -/
def exAngBody : MPState ℚ 2 2 := { exBody with stress := fun _ => 0 }

/-- The nodes after the transfer and integration without forces. -/
def exAngNodes : GridArrays ℚ 2 :=
  integrateBody (1 / 10) (aflipP2gBody exAngGrid.cellSize (compute .quadratic exAngGrid exAngBody.position) (fun _ => 0)
    exAngBody GridArrays.new)

set_option maxRecDepth 100000 in
/-- **C82** fails in general: a stress-free two-point body with no forces, no FLIP blending and no clamping leaves an ASFLIP
step with another angular momentum than the nodes and the points before had. -/
theorem aflip_g2p_angular_fails :
    exAngular exAngBody (fun _ => 0) = 34 / 15 ∧
    ∑ j ∈ Finset.range exAngGrid.numCells, wedge (exAngGrid.positionStack j) (exAngNodes.momentNt j) 0 1 = 34 / 15 ∧
    (∀ j < exAngGrid.numCells, exAngNodes.mass j ≤ exAngParams.cutoff → ∀ a, exAngNodes.momentNt j a = 0) ∧
    ∃ r, aflipG2pBody ratSqrt exAngParams exAngGrid.cellSize (1 / 10) (compute .quadratic exAngGrid exAngBody.position) exAngNodes
      exAngBody = .ok r ∧ exAngular r.1 r.2 ≠ 34 / 15 := by
  refine ⟨by decide +kernel, by decide +kernel, by decide +kernel, _, rfl, by decide +kernel⟩

/-- A body in rigid rotation about the point (1/2, 1/2), with matching affine matrices. -/
def exSpinBody : MPState ℚ 2 2 :=
  { exBody with stress := fun _ => 0, velocity := fun p => ![-(exBody.position p 1 - 1 / 2), exBody.position p 0 - 1 / 2] }

/-- The affine matrices of the rotation (minus the velocity gradient). -/
def exSpinBp : Fin 2 → Mat3 ℚ := fun _ => !![0, 1, 0; -1, 0, 0; 0, 0, 0]

/-- Default blending with the speed limit out of reach. -/
def exSpinParams : AflipParams ℚ := { exAflipParams with cfl := 10 }

theorem exSpin_inBox : ∀ p, InBox (fun _ => (0 : ℚ)) (fun _ => 1) (exSpinBody.position p) := exBody_inBox

set_option maxRecDepth 100000 in
theorem exSpin_heavy : ∀ i, (compute .quadratic exAngGrid exSpinBody.position).shapeVal i ≠ 0 → exSpinParams.cutoff <
    (p2gBody (compute .quadratic exAngGrid exSpinBody.position) exSpinBody GridArrays.new).mass
      ((compute .quadratic exAngGrid exSpinBody.position).nodeHash i) := by
  decide +kernel

set_option maxRecDepth 100000 in
theorem exSpin_slow : ∀ p, clampFactor ratSqrt exSpinParams.cfl (1 / 2) (1 / 10)
    (fun a => exSpinBody.velocity p a + 1 / 10 * (![0, -10] : Fin 2 → ℚ) a) = 1 := by
  decide +kernel

/-- `aflip_affine_motion_kept` on a rotating body falling under gravity with the default blending factor. -/
example : ∃ r, aflipG2pBody ratSqrt exSpinParams (1 / 2) (1 / 10) (compute .quadratic exAngGrid exSpinBody.position)
      (integrateBody (1 / 10) (gravityGrid ![0, -10] (aflipP2gBody (1 / 2) (compute .quadratic exAngGrid exSpinBody.position)
        exSpinBp exSpinBody GridArrays.new))) exSpinBody = .ok r ∧ r.2 1 0 1 = 1 ∧ r.1.velocity 0 1 = -7 / 6 := by
  refine ⟨_, rfl, ?_⟩
  have := aflip_affine_motion_kept (Or.inl rfl) .quadratic (fun _ => (0 : ℚ)) (fun _ => 1) (1 / 2) (by norm_num) 2 le_rfl
    exSpinBody exSpin_inBox (by simp) rfl rfl ![1 / 2, -1 / 2] ![![0, -1], ![1, 0]]
    (by intro p a; fin_cases p <;> fin_cases a <;> decide +kernel) exSpinBp
    (by intro p a b; fin_cases p <;> fin_cases a <;> fin_cases b <;> decide +kernel) ratSqrt exSpinParams (by decide +kernel) ![0, -10] (1 / 10)
    exSpin_heavy exSpin_slow _ rfl
  refine ⟨((this 1).2.2 0 1).trans (by decide +kernel), ((this 0).1 1).trans (by decide +kernel)⟩

/-- `aflip_p2g_angular_momentum` and `nodal_forces_moment` on spinning points with stress and point forces. -/
example :
    let s : MPState ℚ 2 2 := { exBody with force := ![![1, 0], ![0, 3]] }
    let c := compute .cubic exAngGrid s.position
    let gr := aflipP2gBody exAngGrid.cellSize c exSpinBp s GridArrays.new
    ∑ j ∈ Finset.range exAngGrid.numCells, wedge (exAngGrid.positionStack j) (gr.moment j) 0 1 = 83 / 30 ∧
    ∑ j ∈ Finset.range exAngGrid.numCells, wedge (exAngGrid.positionStack j) (gr.force j) 0 1 = 3 / 5 := by
  intro s c gr
  refine ⟨(aflip_p2g_angular_momentum (Or.inl rfl) .cubic (by simp) (fun _ => (0 : ℚ)) (fun _ => 1) (1 / 2) (by norm_num) 2
    le_rfl s exBody_inBox exSpinBp 0 1).trans (by decide +kernel),
    ((nodal_forces_moment (Or.inl rfl) .cubic (fun _ => (0 : ℚ)) (fun _ => 1) (1 / 2) (by norm_num) 2 le_rfl s exBody_inBox
      (by simp) ?_ GridArrays.new exSpinBp 0 1).2).trans (by decide +kernel)⟩
  intro p i j
  fin_cases i <;> fin_cases j <;> rfl

/-- Nodes rotating rigidly with the masses of the example body. -/
def exSpinNodes : GridArrays ℚ 2 :=
  let m := (p2gBody (compute .quadratic exAngGrid exSpinBody.position) exSpinBody GridArrays.new).mass
  { mass := m, moment := fun _ _ => 0, force := fun _ _ => 0
    momentNt := fun j a => m j * ((![1 / 2, -1 / 2] : Fin 2 → ℚ) a +
      ∑ k, (![![0, -1], ![1, 0]] : Fin 2 → Fin 2 → ℚ) a k * exAngGrid.positionStack j k) }

set_option maxRecDepth 100000 in
theorem exSpinNodes_light : ∀ j < exAngGrid.numCells, exSpinNodes.mass j ≤ exAngParams.cutoff → ∀ a, exSpinNodes.momentNt j a = 0 := by
  decide +kernel

set_option maxRecDepth 100000 in
theorem exSpinNodes_slow : ∀ p, clampFactor ratSqrt exAngParams.cfl (1 / 2) (1 / 10)
    (fun a => (![1 / 2, -1 / 2] : Fin 2 → ℚ) a +
      ∑ k, (![![0, -1], ![1, 0]] : Fin 2 → Fin 2 → ℚ) a k * exSpinBody.position p k) = 1 := by
  decide +kernel

/-- `aflip_g2p_angular_partial` on nodes in rigid rotation. -/
example : ∃ r, aflipG2pBody ratSqrt exAngParams (1 / 2) (1 / 10) (compute .quadratic exAngGrid exSpinBody.position) exSpinNodes
      exSpinBody = .ok r ∧ exAngular r.1 r.2 =
        ∑ j ∈ Finset.range exAngGrid.numCells, wedge (exAngGrid.positionStack j) (exSpinNodes.momentNt j) 0 1 :=
  ⟨_, rfl, aflip_g2p_angular_partial (Or.inl rfl) .quadratic (by simp) (fun _ => (0 : ℚ)) (fun _ => 1) (1 / 2) (by norm_num) 2
    le_rfl exSpinBody exSpin_inBox ratSqrt exAngParams (by decide +kernel) rfl (1 / 10) exSpinNodes (fun _ _ => rfl)
    exSpinNodes_light _ _ (fun _ => ⟨fun _ _ _ => rfl, fun i _ hi => exSpin_heavy i hi⟩) exSpinNodes_slow _ rfl 0 1⟩

/-! ### C74 for the ASFLIP solver -/

/-- **C74** (ASFLIP, what the code does): with a constant blending factor and below the speed limit the new velocity is
`(1 - alpha)` times the interpolated grid velocity (PIC) plus `alpha` times the old velocity changed by the interpolated
change of the grid (FLIP). The docstring (usl_asflip.py:83) has the two ends swapped. -/
theorem aflip_alpha_blend {K : Type*} [Field K] [LinearOrder K] {dim n w : ℕ} (sqrt : K → K) (pr : AflipParams K)
    (hconst : pr.useDynamicAlpha = false) (cell dt : K) (c : InteractionCache K n w) (g : GridArrays K dim) (s : MPState K dim n)
    (r : MPState K dim n × (Fin n → Mat3 K)) (hr : aflipG2pBody sqrt pr cell dt c g s = .ok r) (p : Fin n)
    (pic old : Fin dim → K)
    (hpic : ∀ a, pic a = pointSum c (fun i => c.shapeVal i * nodeVel pr.cutoff (g.mass (c.nodeHash i)) (g.momentNt (c.nodeHash i) a)) p)
    (hold : ∀ a, old a = pointSum c (fun i => c.shapeVal i * nodeVel pr.cutoff (g.mass (c.nodeHash i)) (g.moment (c.nodeHash i) a)) p)
    (hslow : clampFactor sqrt pr.cfl cell dt
      (fun a => (1 - pr.alpha) * pic a + pr.alpha * (s.velocity p a + (pic a - old a))) = 1) (a : Fin dim) :
    r.1.velocity p a = (1 - pr.alpha) * pic a + pr.alpha * (s.velocity p a + (pic a - old a)) := by
  have e : ∀ a, (aflipGather pr.cutoff c g).pVelNt p a + dynAlpha pr c g s p * (s.velocity p a - (aflipGather pr.cutoff c g).pVel p a) =
      (1 - pr.alpha) * pic a + pr.alpha * (s.velocity p a + (pic a - old a)) := by
    intro a
    have h1 : (aflipGather pr.cutoff c g).pVelNt p a = pic a := (hpic a).symm
    have h2 : (aflipGather pr.cutoff c g).pVel p a = old a := (hold a).symm
    have h3 : dynAlpha pr c g s p = pr.alpha := by simp [dynAlpha, hconst]
    rw [h1, h2, h3]
    ring
  rw [aflipG2pBody_ok hr]
  change ((aflipGather pr.cutoff c g).pVelNt p a + dynAlpha pr c g s p * (s.velocity p a - (aflipGather pr.cutoff c g).pVel p a)) *
    clampFactor sqrt pr.cfl cell dt (fun a => (aflipGather pr.cutoff c g).pVelNt p a +
      dynAlpha pr c g s p * (s.velocity p a - (aflipGather pr.cutoff c g).pVel p a)) = _
  simp only [e, hslow, mul_one]

/-- `aflip_alpha_blend` on the nodes of the example: the documented FLIP end `alpha = 0` is PIC. -/
example : ∃ r, aflipG2pBody ratSqrt exAngParams exAngGrid.cellSize (1 / 10) (compute .quadratic exAngGrid exAngBody.position)
    exAngNodes exAngBody = .ok r ∧ ∀ a, r.1.velocity 0 a = (1 - exAngParams.alpha) *
      (pointSum (compute .quadratic exAngGrid exAngBody.position) (fun i =>
        (compute .quadratic exAngGrid exAngBody.position).shapeVal i * nodeVel exAngParams.cutoff
          (exAngNodes.mass ((compute .quadratic exAngGrid exAngBody.position).nodeHash i))
          (exAngNodes.momentNt ((compute .quadratic exAngGrid exAngBody.position).nodeHash i) a)) 0) := by
  refine ⟨_, rfl, fun a => ?_⟩
  refine (aflip_alpha_blend ratSqrt exAngParams rfl exAngGrid.cellSize (1 / 10) _ exAngNodes exAngBody _ rfl 0 _ _
    (fun a => rfl) (fun a => rfl) (by decide +kernel) a).trans ?_
  have : exAngParams.alpha = 0 := rfl
  rw [this]
  ring

end Hydrax
