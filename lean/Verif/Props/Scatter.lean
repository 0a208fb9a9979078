import Verif.Props.Mapping
import Verif.Lemmas.Transfer
import Mathlib.Algebra.BigOperators.Field

/-!
# Post-processing transfers (C64) and default material points (C65)
-/

set_option linter.unusedSectionVars false

namespace Hydrax
open Spec

section
variable {K : Type*} [Field K] [LinearOrder K] [IsStrictOrderedRing K] [FloorRing K] {dim n : ℕ}

/-- Weight of a node at `y` for a point at `x` of mass `m`: mass times tensor-product B-spline. -/
def Spec.pointWeight (deg : ℕ) (h : K) (x y : Fin dim → K) (m : K) : K := m * ∏ d, bspline deg ((x d - y d) / h)

/-- Degree of the kernel. -/
def Spec.degree : Kernel → ℕ
  | .linear => 1
  | .quadratic => 2
  | .cubic => 3

theorem scatterAdd_points {w : ℕ} (c : InteractionCache K n w) (f : Fin n → K) (j : ℕ) :
    scatterAdd c.nodeHash (fun i => f (c.pointId i) * c.shapeVal i) j = ∑ p, f p * weightAt c p j := by
  unfold scatterAdd weightAt
  have := sum_by_point c f fun i => if c.nodeHash i = j then c.shapeVal i else 0
  unfold pointSum at this
  rw [← this]
  refine Finset.sum_congr rfl fun i _ => ?_
  split_ifs <;> simp

theorem weightAt_create (ker : Kernel) (o e : Fin dim → K) (h : K) (hh : 0 < h) (pad : ℕ)
    (pos : Fin n → Fin dim → K) (p : Fin n) (j : ℕ) (hj : j < (GridDomain.create o e h pad).numCells) :
    weightAt (compute ker (GridDomain.create o e h pad) pos) p j =
      ∏ d, bspline (Spec.degree ker) ((pos p d - (GridDomain.create o e h pad).positionStack j d) / h) := by
  rw [weights_are_bsplines ker _ (create_inv o e h hh pad) pos p j hj]
  refine Finset.prod_congr rfl fun d _ => ?_
  have : (GridDomain.create o e h pad).invCellSize = 1 / h := rfl
  rw [this, mul_one_div]
  cases ker <;> rfl

/-- **C64**: the normalised nodal value is the mean of the point data weighted with mass times B-spline weight, and zero
where the total weight does not exceed the cutoff. -/
theorem scatter_weighted_mean (ker : Kernel) (o e : Fin dim → K) (h : K) (hh : 0 < h) (pad : ℕ)
    (pos : Fin n → Fin dim → K) (data m : Fin n → K) (cut : K) (j : ℕ)
    (hj : j < (GridDomain.create o e h pad).numCells) :
    let y := (GridDomain.create o e h pad).positionStack j
    let W := ∑ p, Spec.pointWeight (Spec.degree ker) h (pos p) y (m p)
    scatterToGrid (compute ker (GridDomain.create o e h pad) pos) data m cut true j =
      if W > cut then (∑ p, Spec.pointWeight (Spec.degree ker) h (pos p) y (m p) * data p) / W else 0 := by
  intro y W
  have h1 : scatterAdd (compute ker (GridDomain.create o e h pad) pos).nodeHash
      (fun i => (compute ker (GridDomain.create o e h pad) pos).shapeVal i *
        m ((compute ker (GridDomain.create o e h pad) pos).pointId i)) j = W := by
    have := scatterAdd_points (compute ker (GridDomain.create o e h pad) pos) m j
    simp only [mul_comm] at this ⊢
    rw [this]
    refine Finset.sum_congr rfl fun p _ => ?_
    rw [weightAt_create ker o e h hh pad pos p j hj, Spec.pointWeight, mul_comm]
  have h2 : scatterAdd (compute ker (GridDomain.create o e h pad) pos).nodeHash
      (fun i => data ((compute ker (GridDomain.create o e h pad) pos).pointId i) *
        ((compute ker (GridDomain.create o e h pad) pos).shapeVal i *
        m ((compute ker (GridDomain.create o e h pad) pos).pointId i))) j =
      ∑ p, Spec.pointWeight (Spec.degree ker) h (pos p) y (m p) * data p := by
    have := scatterAdd_points (compute ker (GridDomain.create o e h pad) pos) (fun p => data p * m p) j
    have e1 : (fun i => data ((compute ker (GridDomain.create o e h pad) pos).pointId i) *
        ((compute ker (GridDomain.create o e h pad) pos).shapeVal i *
        m ((compute ker (GridDomain.create o e h pad) pos).pointId i))) = fun i =>
        data ((compute ker (GridDomain.create o e h pad) pos).pointId i) *
        m ((compute ker (GridDomain.create o e h pad) pos).pointId i) *
        (compute ker (GridDomain.create o e h pad) pos).shapeVal i := by
      funext i; ring
    rw [e1, this]
    refine Finset.sum_congr rfl fun p _ => ?_
    rw [weightAt_create ker o e h hh pad pos p j hj, Spec.pointWeight]
    ring
  simp only [scatterToGrid, if_true, h1, h2]
  split_ifs <;> rfl

theorem bspline_nonneg_of_kernel (ker : Kernel) (x : K) : 0 ≤ bspline (Spec.degree ker) x := by
  have := basis1_nonneg ker x
  rw [basis1_eq_bspline] at this
  cases ker <;> exact this

/-- **C64**: constants are reproduced, and values stay within the range of the data. -/
theorem scatter_range (ker : Kernel) (o e : Fin dim → K) (h : K) (hh : 0 < h) (pad : ℕ)
    (pos : Fin n → Fin dim → K) (data m : Fin n → K) (hm : ∀ p, 0 ≤ m p) (cut : K) (hcut : 0 ≤ cut) (j : ℕ)
    (hj : j < (GridDomain.create o e h pad).numCells) (lo hi : K) (hd : ∀ p, lo ≤ data p ∧ data p ≤ hi)
    (hW : cut < ∑ p, Spec.pointWeight (Spec.degree ker) h (pos p) ((GridDomain.create o e h pad).positionStack j) (m p)) :
    let r := scatterToGrid (compute ker (GridDomain.create o e h pad) pos) data m cut true j
    lo ≤ r ∧ r ≤ hi := by
  intro r
  have hr : r = _ := scatter_weighted_mean ker o e h hh pad pos data m cut j hj
  rw [if_pos hW] at hr
  set W := ∑ p, Spec.pointWeight (Spec.degree ker) h (pos p) ((GridDomain.create o e h pad).positionStack j) (m p) with hWd
  have hpos : 0 < W := lt_of_le_of_lt hcut hW
  have hnn : ∀ p, 0 ≤ Spec.pointWeight (Spec.degree ker) h (pos p)
      ((GridDomain.create o e h pad).positionStack j) (m p) := fun p =>
    mul_nonneg (hm p) (Finset.prod_nonneg fun d _ => bspline_nonneg_of_kernel ker _)
  rw [hr, le_div_iff₀ hpos, div_le_iff₀ hpos, hWd, Finset.mul_sum, Finset.mul_sum]
  constructor <;> refine Finset.sum_le_sum fun p _ => ?_
  · rw [mul_comm]; exact mul_le_mul_of_nonneg_left (hd p).1 (hnn p)
  · rw [mul_comm hi]; exact mul_le_mul_of_nonneg_left (hd p).2 (hnn p)

/-- **C64**: a constant field is reproduced exactly. -/
theorem scatter_constant (ker : Kernel) (o e : Fin dim → K) (h : K) (hh : 0 < h) (pad : ℕ)
    (pos : Fin n → Fin dim → K) (v : K) (m : Fin n → K) (hm : ∀ p, 0 ≤ m p) (cut : K) (hcut : 0 ≤ cut) (j : ℕ)
    (hj : j < (GridDomain.create o e h pad).numCells)
    (hW : cut < ∑ p, Spec.pointWeight (Spec.degree ker) h (pos p) ((GridDomain.create o e h pad).positionStack j) (m p)) :
    scatterToGrid (compute ker (GridDomain.create o e h pad) pos) (fun _ => v) m cut true j = v := by
  have := scatter_range ker o e h hh pad pos (fun _ => v) m hm cut hcut j hj v v (fun _ => ⟨le_rfl, le_rfl⟩) hW
  exact le_antisymm this.2 this.1

/-- **C64** (not normalised): the total over the nodes is the total over the points in the box, so mass is conserved. -/
theorem scatter_total (hdim : dim = 2 ∨ dim = 3) (ker : Kernel) (o e : Fin dim → K) (h : K) (hh : 0 < h) (pad : ℕ)
    (hpad : 2 ≤ pad) (pos : Fin n → Fin dim → K) (hin : ∀ p, InBox o e (pos p)) (data m : Fin n → K) (cut : K) :
    let g := GridDomain.create o e h pad
    ∑ j ∈ Finset.range g.numCells, scatterToGrid (compute ker g pos) data m cut false j = ∑ p, data p * m p := by
  intro g
  have hc := goodCache_of_inBox hdim ker o e h hh pad hpad pos hin
  have e1 : ∀ j, scatterToGrid (compute ker g pos) data m cut false j =
      scatterAdd (compute ker g pos).nodeHash (fun i => (data ((compute ker g pos).pointId i) *
        m ((compute ker g pos).pointId i)) * (compute ker g pos).shapeVal i) j := by
    intro j
    simp only [scatterToGrid]
    unfold scatterAdd
    refine Finset.sum_congr rfl fun i _ => ?_
    split_ifs
    · ring
    · rfl
  simp only [e1]
  rw [sum_scatterAdd _ hc.hash_lt, sum_by_point (compute ker g pos) (fun p => data p * m p)]
  refine Finset.sum_congr rfl fun p _ => ?_
  rw [hc.sum_val p, mul_one]

/-- **C64** (refuted for gather): `gather_from_grid` reads an attribute that the cache does not have and always fails. -/
theorem gather_fails {w : ℕ} (c : InteractionCache K n w) (u : ℕ → K) :
    gatherFromGrid c u = .error .attributeError := by
  have h : "window_size" ∉ interactionCacheAttrs := by decide
  simp only [gatherFromGrid, getAttr, if_neg h]

/-- **C64** (partial for gather): with the window size of the mapping object, gathering reproduces affine nodal fields at
every point of the box. -/
theorem gather_intended_partial (ker : Kernel) (o e : Fin dim → K) (h : K) (hh : 0 < h)
    (pad : ℕ) (hpad : 2 ≤ pad) (pos : Fin n → Fin dim → K) (p : Fin n)
    (hx : InBox o e (pos p)) (b : K) (A : Fin dim → K) :
    let g := GridDomain.create o e h pad
    gatherFromGridIntended (compute ker g pos) (fun j => b + ∑ a, A a * g.positionStack j a) p = b + ∑ a, A a * pos p a := by
  intro g
  have := affine_field_reproduced ker o e h hh pad hpad pos p hx b A
  simp only [Finset.sum_filter] at this
  exact this

set_option maxRecDepth 100000 in
/-- Two points in one cell: the value of a node of that cell is strictly between the data. -/
example : let g := GridDomain.create (dim := 2) (fun _ => (0:ℚ)) (fun _ => 1) (1/2)
    let r := scatterToGrid (compute .linear g (![![1/5, 1/5], ![2/5, 1/10]] : Fin 2 → Fin 2 → ℚ)) ![1, 3] ![2, 5] (1/10^9) true
    1 < r 16 ∧ r 16 < 3 ∧ r 0 = 0 := by
  decide +kernel

end

/-! ### C65 -/

section
variable {K : Type*} [Field K] [LinearOrder K] [IsStrictOrderedRing K] {dim n : ℕ}

/-- **C65**: without explicit mass and reference volume, mass is density times volume (density 1000 unless given) and the
reference volume is the volume; without explicit volume it is the square of the cell size over `ppc`. -/
theorem create_consistent (a : MPCreateArgs K dim n) (p : Fin n) :
    (a.mass = none → (MPState.create a).mass p =
      (match a.kwDensity with | some ρ => ρ p | none => 1000) * (MPState.create a).volume p) ∧
    (a.volume0 = none → (MPState.create a).volume0 p = (MPState.create a).volume p) ∧
    (a.volume = none → (MPState.create a).volume p =
      (match a.kwScalar "cell_size" with | some h => h | none => 1) ^ 2 /
      (match a.kwScalar "ppc" with | some c => c | none => 4)) ∧
    (∀ v, a.volume = some v → (MPState.create a).volume p = v p) := by
  refine ⟨fun h => ?_, fun h => ?_, fun h => ?_, fun v h => ?_⟩
  · simp only [MPState.create, h, Option.getD_none]
    cases a.kwDensity <;> exact mul_comm _ _
  · simp only [MPState.create, h, Option.getD_none]
  · simp only [MPState.create, h, Option.getD_none, one_mul]
    cases a.kwScalar "cell_size" <;> cases a.kwScalar "ppc" <;> rfl
  · simp only [MPState.create, h, Option.getD_some]

/-- **C65**: arrays given by the caller are stored as they are, and what is neither given nor derived starts at rest, free
of stress and undeformed. -/
theorem create_keeps_given (a : MPCreateArgs K dim n) :
    let s := MPState.create a
    s.position = a.position ∧ (∀ v, a.velocity = some v → s.velocity = v) ∧ (∀ f, a.force = some f → s.force = f) ∧
    (∀ m, a.mass = some m → s.mass = m) ∧ (∀ V, a.volume0 = some V → s.volume0 = V) ∧ (∀ L, a.L = some L → s.L = L) ∧
    (∀ T, a.stress = some T → s.stress = T) ∧ (∀ F, a.F = some F → s.F = F) ∧
    (a.velocity = none → ∀ p i, s.velocity p i = 0) ∧ (a.force = none → ∀ p i, s.force p i = 0) ∧
    (a.L = none → ∀ p, s.L p = 0) ∧ (a.stress = none → ∀ p, s.stress p = 0) ∧
    (a.F = none → ∀ p, Matrix.det (s.F p) = 1 ∧ s.F p = 1) := by
  refine ⟨rfl, ?_, ?_, ?_, ?_, ?_, ?_, ?_, ?_, ?_, ?_, ?_, ?_⟩ <;> intros <;>
    simp_all [MPState.create]

/-- A body with a reference volume of its own. -/
example : (MPState.create { position := ![![0, 0]], volume := some ![1], volume0 := some ![2] } : MPState ℚ 2 1).volume0 =
    ![2] :=
  (create_keeps_given _).2.2.2.2.1 _ rfl

/-- **C65** (partial for the density): the reported density is the requested one up to a relative error of `1e-16/V`. -/
theorem create_density_partial (a : MPCreateArgs K dim n) (ρ : Fin n → K) (hm : a.mass = none) (hρ : a.kwDensity = some ρ)
    (p : Fin n) (hp : 0 ≤ ρ p) (hV : 0 < (MPState.create a).volume p) :
    (MPState.create a).density p ≤ ρ p ∧
    ρ p - (MPState.create a).density p ≤ ρ p * ((1 / 10 ^ 16) / (MPState.create a).volume p) := by
  have h1 := (create_consistent a p).1 hm
  rw [hρ] at h1
  simp only [] at h1
  set V := (MPState.create a).volume p
  have he : (0 : K) < 1 / 10 ^ 16 := by positivity
  have hs : 0 < V + 1 / 10 ^ 16 := by linarith
  have hd : (MPState.create a).density p = ρ p * V / (V + 1 / 10 ^ 16) := by
    simp only [MPState.density, h1, V]
  rw [hd]
  constructor
  · rw [div_le_iff₀ hs]
    nlinarith [mul_nonneg hp he.le]
  · have e1 : ρ p - ρ p * V / (V + 1 / 10 ^ 16) = ρ p * ((1 / 10 ^ 16) / (V + 1 / 10 ^ 16)) := by
      field_simp
      ring
    rw [e1]
    refine mul_le_mul_of_nonneg_left ?_ hp
    exact div_le_div_of_nonneg_left he.le hV (by linarith)

/-- **C65** (refuted): in every case with positive density and volume the reported density differs from the requested one. -/
theorem create_density_inexact (a : MPCreateArgs K dim n) (ρ : Fin n → K) (hm : a.mass = none) (hρ : a.kwDensity = some ρ)
    (p : Fin n) (hp : 0 < ρ p) (hV : 0 < (MPState.create a).volume p) : (MPState.create a).density p < ρ p := by
  have h1 := (create_consistent a p).1 hm
  rw [hρ] at h1
  simp only [] at h1
  have he : (0 : K) < 1 / 10 ^ 16 := by positivity
  rw [MPState.density, h1, div_lt_iff₀ (by linarith)]
  nlinarith [mul_pos hp he]

/-- **C65** (refuted in 3D): the default volume of a point is `h² / ppc` whatever the dimension, so a full cell of `ppc`
points of cell size `h ≠ 1` does not have volume `h³`. -/
theorem default_volume_3d (pos : Fin n → Fin 3 → K) (h c : K) (hh : 0 < h) (h1 : h ≠ 1) (hc : 0 < c) (p : Fin n) :
    (MPState.create { position := pos, kwScalar := fun s =>
        if s = "cell_size" then some h else if s = "ppc" then some c else none }).volume p ≠ h ^ 3 / c := by
  rw [(create_consistent _ p).2.2.1 rfl]
  simp only [if_true]
  rw [if_neg (by decide : ¬("ppc" = "cell_size"))]
  intro he
  have e2 : h ^ 2 = h ^ 3 := by
    simp only [] at he
    rwa [div_left_inj' hc.ne'] at he
  exact h1 (by
    have e3 : h ^ 2 * (h - 1) = 0 := by linear_combination -e2
    rcases mul_eq_zero.mp e3 with e4 | e4
    · exact absurd (pow_eq_zero_iff (two_ne_zero)|>.mp e4) hh.ne'
    · linear_combination e4)

/-- **C65** (refuted): the documented keyword `points_per_cell` is ignored. -/
theorem points_per_cell_ignored (a : MPCreateArgs K dim n) (v : Option K) :
    MPState.create { a with kwScalar := fun s => if s = "points_per_cell" then v else a.kwScalar s } = MPState.create a := by
  simp only [MPState.create]
  rw [if_neg (by decide : ¬("cell_size" = "points_per_cell")), if_neg (by decide : ¬("ppc" = "points_per_cell"))]

/-- Four points per cell of size 1/2 in 2D, density 1600. -/
example :
    let a : MPCreateArgs ℚ 2 3 :=
      { position := fun _ _ => 0
        kwDensity := some (fun _ => 1600)
        kwScalar := fun s => if s = "cell_size" then some (1 / 2) else none }
    (MPState.create a).mass 1 = 100 := by decide +kernel

end
end Hydrax
