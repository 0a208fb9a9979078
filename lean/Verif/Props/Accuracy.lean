import Verif.Props.Mapping
import Verif.Props.Walls
import Verif.Props.FreeFall
import Verif.Props.Dependence
import Mathlib.Analysis.Calculus.Deriv.MeanValue

/-!
# Finer grids are more accurate (C152)
-/

set_option linter.unusedSectionVars false

namespace Hydrax
open Spec

section
variable {K : Type*} [Field K] [LinearOrder K] [IsStrictOrderedRing K] [FloorRing K] {dim : ℕ}

/-- A field with gradient `G` and second derivatives bounded by `M`: the error of its linearisation is at most `M/2` times the squared
distance. -/
def Spec.Smooth (u : (Fin dim → K) → K) (G : (Fin dim → K) → Fin dim → K) (M : K) : Prop :=
  ∀ x y, |u y - u x - ∑ a, G x a * (y a - x a)| ≤ M / 2 * ∑ a, (y a - x a) ^ 2

/-- A field that changes by at most `Λ` per length. -/
def Spec.Slope (u : (Fin dim → K) → K) (Λ : K) : Prop := ∀ x y, |u y - u x| ≤ Λ * ∑ a, |y a - x a|

/-- Largest variance of the weights of a kernel along an axis, in squared cells. -/
def Spec.variance : Kernel → K
  | .linear => 1 / 4
  | .quadratic => 1 / 4
  | .cubic => 1 / 3

theorem secondMoment_le (ker : Kernel) (t : K) : secondMoment ker t ≤ variance ker := by
  cases ker
  · simp only [secondMoment, variance]
    nlinarith [sq_nonneg (frac .linear t - 1 / 2)]
  · exact le_rfl
  · exact le_rfl

theorem sum_abs_dbasis (ker : Kernel) {c : K} (hc : 0 ≤ c) (t : K) :
    ∑ j : Fin (winLen ker), |dbasis1 c ker (t - ((baseId ker t + off ker j : ℤ) : K))| ≤ 2 * c := by
  have h0 := frac_nonneg ker t
  have h1 := frac_lt_one ker t
  cases ker
  · rw [stencil_sum_linear t (fun x => |dbasis1 c .linear x|)]
    simp only [dbasis1]
    rw [linearDBasis_left h0 h1, linearDBasis_right h0 h1]
    split_ifs
    · simp; exact hc
    · rw [abs_neg, abs_of_nonneg hc]; linarith
  · rw [stencil_sum_quadratic t (fun x => |dbasis1 c .quadratic x|)]
    simp only [dbasis1]
    rw [quadraticDBasis_0 h0 h1, quadraticDBasis_1 h0 h1, quadraticDBasis_2 h0 h1]
    generalize frac .quadratic t = f at h0 h1
    rw [abs_mul, abs_mul, abs_mul, abs_of_nonneg hc, abs_of_nonneg h0, abs_of_nonpos (by linarith : f - 1 ≤ 0)]
    have : |1 - 2 * f| ≤ 1 := abs_le.2 ⟨by linarith, by linarith⟩
    nlinarith
  · rw [stencil_sum_cubic t (fun x => |dbasis1 c .cubic x|)]
    simp only [dbasis1]
    rw [cubicDBasis_0 h0 h1, cubicDBasis_1 h0 h1, cubicDBasis_2 h0 h1, cubicDBasis_3 h0 h1]
    generalize frac .cubic t = f at h0 h1
    rw [abs_mul, abs_mul, abs_mul, abs_mul, abs_of_nonneg hc, abs_of_nonneg (by positivity : 0 ≤ f ^ 2 / 2),
      abs_of_nonpos (by nlinarith [sq_nonneg (1 - f)] : -(1 - f) ^ 2 / 2 ≤ 0), abs_of_nonpos (by nlinarith : 3 / 2 * f ^ 2 - 2 * f ≤ 0),
      abs_of_nonneg (by nlinarith : 0 ≤ -3 / 2 * f ^ 2 + f + 1 / 2)]
    nlinarith [mul_nonneg hc (sq_nonneg (f - 1 / 2))]

theorem stencil_abs_grad {ker : Kernel} {g : GridDomain K dim} {xp : Fin dim → K} (hdim : dim = 2 ∨ dim = 3) (hg : 0 ≤ g.invCellSize)
    (h : StencilInside ker g xp) (k : Fin 3) :
    ∑ s : Fin (windowSize ker dim), |(computeSingle ker g xp s).shapeGrad k| ≤ 2 * g.invCellSize := by
  rw [Finset.sum_congr rfl (fun s _ => by rw [computeSingle_grad ker g xp s (h s s.isLt)])]
  by_cases hk : k.val < dim
  · simp only [pad3_lt _ k hk, tensorGrad_eq hdim, Finset.abs_prod]
    have := sum_stencil_sep ker g xp (fun d x =>
      |if d = ⟨k.val, hk⟩ then dbasis1 g.invCellSize ker x else basis1 ker x|)
    rw [this, Finset.prod_eq_single (⟨k.val, hk⟩ : Fin dim)]
    · simpa using sum_abs_dbasis ker hg (basePos g xp ⟨k.val, hk⟩)
    · intro d _ hd
      rw [← sum_basis ker (basePos g xp d)]
      refine Finset.sum_congr rfl fun j _ => ?_
      rw [if_neg hd]
      exact abs_of_nonneg (basis1_nonneg ker _)
    · intro hx; exact absurd (Finset.mem_univ _) hx
  · simp only [pad3_ge _ k hk, abs_zero, Finset.sum_const_zero]
    positivity

variable (hdim : dim = 2 ∨ dim = 3) (ker : Kernel) (o e : Fin dim → K) (h : K) (hh : 0 < h) (pad : ℕ) (hpad : 2 ≤ pad)
  {n : ℕ} (pos : Fin n → Fin dim → K) (p : Fin n) (hx : InBox o e (pos p))

include hh hpad hx in
/-- The weights of a point have mean square distance at most `variance` squared cells along each axis. -/
theorem second_moment_le (a : Fin dim) :
    let g := GridDomain.create o e h pad
    let c := compute ker g pos
    pointSum c (fun i => c.shapeVal i * (g.positionStack (c.nodeHash i) a - pos p a) ^ 2) p ≤ variance ker * h ^ 2 := by
  intro g c
  have hin : StencilInside ker g (pos p) := stencilInside_of_inBox ker o e h hh pad
    (le_trans (by cases ker <;> decide) hpad) (pos p) hx
  have hg : g.cellSize * g.invCellSize = 1 := create_inv o e h hh pad
  have h1 := compute_sum_point ker g pos p (fun _ I => I.shapeVal * (g.positionStack I.nodeHash a - pos p a) ^ 2)
  refine (le_of_eq h1).trans ?_
  have h2 : ∀ s : Fin (windowSize ker dim),
      (computeSingle ker g (pos p) s).shapeVal * (g.positionStack (computeSingle ker g (pos p) s).nodeHash a - pos p a) ^ 2
      = h ^ 2 * ((computeSingle ker g (pos p) s).shapeVal * distVec ker g (pos p) s a * distVec ker g (pos p) s a) := by
    intro s
    have hv := hin s s.isLt
    have e1 : g.positionStack (computeSingle ker g (pos p) s).nodeHash = latticePos g (nodeIdx ker g (pos p) s) := by
      rw [← positionStack_nodeHashOf g _ hv, ← clipHash_of_valid g _ hv]; rfl
    rw [e1]
    simp only [latticePos_nodeIdx ker g hg]
    have : g.cellSize = h := rfl
    rw [this]; ring
  rw [Finset.sum_congr rfl fun s _ => h2 s, ← Finset.mul_sum, stencil_sum_val_dist_dist hin, if_pos rfl, mul_comm]
  exact mul_le_mul_of_nonneg_right (secondMoment_le ker _) (sq_nonneg h)

theorem pointSum_abs_le {w : ℕ} (c : InteractionCache K n w) (f F : Fin (n * w) → K) (q : Fin n) (hf : ∀ i, c.pointId i = q → |f i| ≤ F i) :
    |pointSum c f q| ≤ pointSum c F q :=
  (Finset.abs_sum_le_sum_abs _ _).trans (Finset.sum_le_sum fun i hi => hf i (Finset.mem_filter.mp hi).2)

include hh hpad hx in
/-- **C152**: a smooth field given at the nodes is interpolated with an error of second order in the size of the cells, at every point of the
box and for every kernel. -/
theorem interpolation_error {u : (Fin dim → K) → K} {G : (Fin dim → K) → Fin dim → K} {M : K} (hM : 0 ≤ M) (hu : Smooth u G M) :
    let g := GridDomain.create o e h pad
    let c := compute ker g pos
    |pointSum c (fun i => c.shapeVal i * u (g.positionStack (c.nodeHash i))) p - u (pos p)| ≤ M / 2 * dim * variance ker * h ^ 2 := by
  intro g c
  have h1 := affine_field_reproduced ker o e h hh pad hpad pos p hx (u (pos p) - ∑ a, G (pos p) a * pos p a) (G (pos p))
  have h2 : pointSum c (fun i => c.shapeVal i * u (g.positionStack (c.nodeHash i))) p - u (pos p) =
      pointSum c (fun i => c.shapeVal i * (u (g.positionStack (c.nodeHash i)) - u (pos p) -
        ∑ a, G (pos p) a * (g.positionStack (c.nodeHash i) a - pos p a))) p := by
    have e1 : u (pos p) = pointSum c (fun i => c.shapeVal i * (u (pos p) - ∑ a, G (pos p) a * pos p a +
        ∑ a, G (pos p) a * g.positionStack (c.nodeHash i) a)) p := by
      have := h1.symm
      rw [sub_add_cancel] at this
      exact this
    nth_rewrite 1 [e1]
    rw [← pointSum_sub]
    refine Finset.sum_congr rfl fun i _ => ?_
    simp only [mul_sub, Finset.sum_sub_distrib]
    ring
  rw [h2]
  have hn : ∀ i, 0 ≤ c.shapeVal i := fun i => computeSingle_val_nonneg ker g _ _
  refine (pointSum_abs_le c _ (fun i => ∑ a, M / 2 * (c.shapeVal i * (g.positionStack (c.nodeHash i) a - pos p a) ^ 2)) p
    (fun i _ => ?_)).trans ?_
  · rw [abs_mul, abs_of_nonneg (hn i), ← Finset.mul_sum, ← Finset.mul_sum]
    refine (mul_le_mul_of_nonneg_left (hu _ _) (hn i)).trans (le_of_eq (by ring))
  · have e3 : pointSum c (fun i => ∑ a, M / 2 * (c.shapeVal i * (g.positionStack (c.nodeHash i) a - pos p a) ^ 2)) p =
        ∑ a, M / 2 * pointSum c (fun i => c.shapeVal i * (g.positionStack (c.nodeHash i) a - pos p a) ^ 2) p := by
      unfold pointSum
      rw [Finset.sum_comm]
      exact Finset.sum_congr rfl fun a _ => by rw [Finset.mul_sum]
    rw [e3]
    refine (Finset.sum_le_sum fun a _ => mul_le_mul_of_nonneg_left (second_moment_le ker o e h hh pad hpad pos p hx a) (by linarith)).trans
      (le_of_eq ?_)
    rw [Finset.sum_const, Finset.card_univ, Fintype.card_fin, nsmul_eq_mul]
    ring

include hh hpad hx in
/-- **C152**: the order and the constant cannot be improved: the interpolant of `|x|²` with the smooth kernels is too large by exactly that. -/
theorem interpolation_error_exact (hker : ker ≠ .linear) :
    let g := GridDomain.create o e h pad
    let c := compute ker g pos
    pointSum c (fun i => c.shapeVal i * ∑ a, g.positionStack (c.nodeHash i) a ^ 2) p - ∑ a, pos p a ^ 2 = dim * variance ker * h ^ 2 := by
  intro g c
  have h1 : ∀ a, pointSum c (fun i => c.shapeVal i * g.positionStack (c.nodeHash i) a ^ 2) p = pos p a ^ 2 + variance ker * h ^ 2 := by
    intro a
    have m2 := second_moment_constant ker hker o e h hh pad hpad pos p hx a a
    have m1 := affine_field_reproduced ker o e h hh pad hpad pos p hx (-pos p a ^ 2) (fun b => if b = a then 2 * pos p a else 0)
    simp only [ite_mul, zero_mul, Finset.sum_ite_eq', Finset.mem_univ, if_true] at m1 m2
    have e1 : pointSum c (fun i => c.shapeVal i * g.positionStack (c.nodeHash i) a ^ 2) p =
        pointSum c (fun i => c.shapeVal i * ((g.positionStack (c.nodeHash i) a - pos p a) * (g.positionStack (c.nodeHash i) a - pos p a))) p +
        pointSum c (fun i => c.shapeVal i * (-pos p a ^ 2 + 2 * pos p a * g.positionStack (c.nodeHash i) a)) p := by
      rw [← pointSum_add]
      refine Finset.sum_congr rfl fun i _ => ?_
      ring
    rw [e1]
    refine (congrArg₂ (· + ·) m2 m1).trans ?_
    cases ker
    · exact absurd rfl hker
    · simp only [variance]; ring
    · simp only [variance]; ring
  have e2 : pointSum c (fun i => c.shapeVal i * ∑ a, g.positionStack (c.nodeHash i) a ^ 2) p =
      ∑ a, pointSum c (fun i => c.shapeVal i * g.positionStack (c.nodeHash i) a ^ 2) p := by
    unfold pointSum
    rw [Finset.sum_comm]
    exact Finset.sum_congr rfl fun i _ => Finset.mul_sum _ _ _
  rw [e2, Finset.sum_congr rfl fun a _ => h1 a, Finset.sum_add_distrib, Finset.sum_const, Finset.card_univ, Fintype.card_fin, nsmul_eq_mul]
  ring

include hdim hh hpad hx in
/-- **C152**: the gradient of a smooth field given at the nodes has an error of first order in the size of the cells (for the linear kernel
off the grid lines). -/
theorem gradient_error (hlin : ker = .linear → ∀ d, ∀ z : ℤ, (pos p d - o d) / h ≠ z) {u : (Fin dim → K) → K}
    {G : (Fin dim → K) → Fin dim → K} {M : K} (hM : 0 ≤ M) (hu : Smooth u G M) (k : Fin dim) :
    let g := GridDomain.create o e h pad
    let c := compute ker g pos
    |pointSum c (fun i => c.shapeGrad i ⟨k, by omega⟩ * u (g.positionStack (c.nodeHash i))) p - G (pos p) k| ≤
      M * dim * (reach ker : K) ^ 2 * h := by
  intro g c
  have hin : StencilInside ker g (pos p) := stencilInside_of_inBox ker o e h hh pad
    (le_trans (by cases ker <;> decide) hpad) (pos p) hx
  have h1 := affine_gradient_reproduced hdim ker o e h hh pad hpad pos p hx hlin (u (pos p) - ∑ a, G (pos p) a * pos p a) (G (pos p)) k
  have h2 : pointSum c (fun i => c.shapeGrad i ⟨k, by omega⟩ * u (g.positionStack (c.nodeHash i))) p - G (pos p) k =
      pointSum c (fun i => c.shapeGrad i ⟨k, by omega⟩ * (u (g.positionStack (c.nodeHash i)) - u (pos p) -
        ∑ a, G (pos p) a * (g.positionStack (c.nodeHash i) a - pos p a))) p := by
    rw [← h1]
    refine (pointSum_sub c _ _ p).symm.trans ?_
    refine Finset.sum_congr rfl fun i _ => ?_
    simp only [mul_sub, Finset.sum_sub_distrib]
    ring
  rw [h2]
  have hr : (0 : K) ≤ reach ker := by cases ker <;> norm_num [reach]
  have hb : ∀ i, c.pointId i = p → |c.shapeGrad i ⟨k, by omega⟩ * (u (g.positionStack (c.nodeHash i)) - u (pos p) -
        ∑ a, G (pos p) a * (g.positionStack (c.nodeHash i) a - pos p a))| ≤
      M / 2 * (dim * (reach ker * h) ^ 2) * |c.shapeGrad i ⟨k, by omega⟩| := by
    intro i hi
    rw [abs_mul, mul_comm]
    by_cases h0 : c.shapeVal i = 0
    · have : c.shapeGrad i ⟨k, by omega⟩ = 0 := grad_eq_zero_of_val hdim _ h0 _
      rw [this, abs_zero, mul_zero, mul_zero]
    · refine mul_le_mul_of_nonneg_right ((hu _ _).trans (mul_le_mul_of_nonneg_left ?_ (by linarith))) (abs_nonneg _)
      refine (Finset.sum_le_card_nsmul _ _ ((reach ker * h) ^ 2) fun a _ => ?_).trans (le_of_eq (by simp))
      have := slot_reach ker o e h hh pad pos i h0 a
      rw [show (compute ker (GridDomain.create o e h pad) pos).pointId i = p from hi] at this
      exact sq_le_sq' (by linarith [(abs_le.1 this).1]) (abs_le.1 this).2
  refine (pointSum_abs_le c _ _ p hb).trans ?_
  rw [pointSum_mul]
  have h3 : pointSum c (fun i => |c.shapeGrad i ⟨k, by omega⟩|) p ≤ 2 * (1 / h) := by
    have := compute_sum_point ker g pos p (fun _ I => |I.shapeGrad ⟨k, by omega⟩|)
    refine (le_of_eq this).trans ?_
    exact stencil_abs_grad hdim (by change 0 ≤ 1 / h; positivity) hin _
  refine (mul_le_mul_of_nonneg_left h3 (by positivity)).trans (le_of_eq ?_)
  field_simp

end

section
variable {z : Sz} {K : Type*} [Field K] [LinearOrder K] [IsStrictOrderedRing K] [FloorRing K] {dim : ℕ}
  {SS LS : Type*} {fn : MathFns K} {sv : Solver z K dim SS LS (ForceState K dim)}

/-- The points of the bodies move with the velocity field `u` and carry no stress. -/
structure Spec.Carried (sv : Solver z K dim SS LS (ForceState K dim)) (u : (Fin dim → K) → Fin dim → K) (w : World z K dim SS) : Prop where
  velocity : ∀ c ∈ sv.couplings, c.skip = false → ∀ s, w.bodies c.p = .deformable s → ∀ q, s.velocity q = u (s.position q)
  stress : ∀ c ∈ sv.couplings, c.skip = false → ∀ s, w.bodies c.p = .deformable s → ∀ q, s.stress q = 0

theorem gridSum_abs_le (cs : List (Coupling z)) (g : Fin z.G) (f F : Coupling z → K) (h : ∀ c ∈ cs, c.skip = false → c.g = g → |f c| ≤ F c) :
    |gridSum cs g f| ≤ gridSum cs g F := by
  induction cs with
  | nil => simp [gridSum]
  | cons c cs ih =>
    rw [gridSum_cons, gridSum_cons]
    refine (abs_add_le _ _).trans (add_le_add ?_ (ih fun b hb => h b (List.mem_cons_of_mem _ hb)))
    split_ifs with h1
    · exact h c List.mem_cons_self h1.1 h1.2
    · simp

/-- **C152**: a step of stress-free bodies under gravity moves every point along the velocity field, and gives it the velocity of the field,
up to an error of first order in the size of the cells, for every arrangement of points; for `alpha = 1` the velocity is exact. -/
theorem step_error (gravs : List (List (Fin z.G) × ℕ)) (hdim : dim = 2 ∨ dim = 3) (hforces : sv.forces = gravityList gravs)
    (hL : ∀ c, (sv.laws c).OnlyStress) {st st' : SimState z K dim SS LS (ForceState K dim)}
    (h : uslCall fn sv st = .ok st') (hr : Regular uslCutoff sv st.world) {u : (Fin dim → K) → Fin dim → K} {Λ r : K} (hΛ : 0 ≤ Λ)
    (hu : ∀ a, Slope (fun x => u x a) Λ) (hk : ∀ c ∈ sv.couplings, (reach c.ker : K) ≤ r) (ht : Carried sv u st.world) :
    ∀ c ∈ sv.couplings, c.skip = false → ∃ s s', st.world.bodies c.p = .deformable s ∧ st'.world.bodies c.p = .deformable s' ∧
      ∀ q a, |s'.position q a - (s.position q a + st.dt * (u (s.position q) a + st.dt * gridAccel st.mech.forces gravs c.g a))| ≤
          |st.dt| * (2 * Λ * dim * r * (sv.domains c.g).cellSize) ∧
        |s'.velocity q a - (u (s.position q) a + st.dt * gridAccel st.mech.forces gravs c.g a)| ≤
          |1 - sv.alpha| * (2 * Λ * dim * r * (sv.domains c.g).cellSize) := by
  obtain ⟨grids, f, x3, x4, S⟩ := usl_stages gravs hdim hforces h hr
  have hf := S.stressfree ht.stress
  have hforce : ∀ g j a, (grids g).force j a = (grids g).mass j * gridAccel st.mech.forces gravs g a := by
    intro g j a
    rw [S.force, hf, zero_add]
  have hnonneg : ∀ j, ∀ c ∈ sv.couplings, c.skip = false → 0 ≤ (st.world.bodies c.p).nodeMass c.ker (sv.domains c.g) j := by
    intro j c hc hs
    obtain ⟨s, e1, hgc, hm, -⟩ := S.body c hc hs
    rw [e1]
    exact nodeMass_nonneg hgc s.mass (fun q => (hm q).le) j
  -- distance along the field between a node and a point of its stencil
  have hdist : ∀ c ∈ sv.couplings, c.skip = false → ∀ s, st.world.bodies c.p = .deformable s → ∀ i,
      (compute c.ker (sv.domains c.g) s.position).shapeVal i ≠ 0 → ∀ a,
      |u ((sv.domains c.g).positionStack ((compute c.ker (sv.domains c.g) s.position).nodeHash i)) a -
        u (s.position ((compute c.ker (sv.domains c.g) s.position).pointId i)) a| ≤ Λ * dim * r * (sv.domains c.g).cellSize := by
    intro c hc hs s e1 i h0 a
    obtain ⟨o, e, k, pad, hk0, hpad, hdom, -⟩ := hr.box c hc hs
    rw [hdom] at h0 ⊢
    refine (hu a _ _).trans ?_
    rw [mul_assoc Λ, mul_assoc Λ]
    refine mul_le_mul_of_nonneg_left ?_ hΛ
    refine (Finset.sum_le_card_nsmul _ _ (r * k) fun b _ => ?_).trans (le_of_eq (by simp [GridDomain.create, mul_assoc]))
    exact (slot_reach c.ker o e k hk0 pad s.position i h0 b).trans (mul_le_mul_of_nonneg_right (hk c hc) hk0.le)
  have hmom : ∀ c ∈ sv.couplings, c.skip = false → ∀ j a, |(grids c.g).moment j a - (grids c.g).mass j * u ((sv.domains c.g).positionStack j) a| ≤
      (grids c.g).mass j * (Λ * dim * r * (sv.domains c.g).cellSize) := by
    intro c hc hs j a
    rw [S.moment, S.mass, gridSum_mul, gridSum_mul]
    have e1 : gridSum sv.couplings c.g (fun b => (st.world.bodies b.p).nodeMoment b.ker (sv.domains b.g) j a) -
        gridSum sv.couplings c.g (fun b => (st.world.bodies b.p).nodeMass b.ker (sv.domains b.g) j * u ((sv.domains c.g).positionStack j) a) =
        gridSum sv.couplings c.g (fun b => (st.world.bodies b.p).nodeMoment b.ker (sv.domains b.g) j a +
          (st.world.bodies b.p).nodeMass b.ker (sv.domains b.g) j * -u ((sv.domains c.g).positionStack j) a) := by
      rw [gridSum_add, ← gridSum_mul, ← gridSum_mul]; ring
    rw [e1]
    refine gridSum_abs_le _ _ _ _ fun b hb hsb hg => ?_
    obtain ⟨s, e2, hgc, hm, -⟩ := S.body b hb hsb
    have hd := hdist b hb hsb s e2
    rw [hg] at hd
    have hv := ht.velocity b hb hsb s e2
    rw [e2, hg]
    simp only [Body.nodeMoment, Body.nodeMass, nodeMass, scatterAdd]
    rw [Finset.sum_mul, Finset.sum_mul, ← Finset.sum_add_distrib]
    refine (Finset.abs_sum_le_sum_abs _ _).trans (Finset.sum_le_sum fun i _ => ?_)
    split_ifs with hj
    · by_cases h0 : (compute b.ker (sv.domains c.g) s.position).shapeVal i = 0
      · simp [h0]
      · have hw : 0 ≤ (compute b.ker (sv.domains c.g) s.position).shapeVal i * s.mass ((compute b.ker (sv.domains c.g) s.position).pointId i) :=
          mul_nonneg (computeSingle_val_nonneg _ _ _ _) (hm _).le
        rw [hv, ← mul_add, abs_mul, abs_of_nonneg hw, ← hj, ← sub_eq_add_neg, abs_sub_comm]
        exact mul_le_mul_of_nonneg_left (hd i h0 a) hw
    · simp
  intro c hc hs
  obtain ⟨s, e1, hgc, hm, e2⟩ := S.body c hc hs
  set ic := compute c.ker (sv.domains c.g) s.position with hic
  set B := Λ * dim * r * (sv.domains c.g).cellSize with hB
  have hnode : ∀ i, ic.shapeVal i ≠ 0 → 0 < (grids c.g).mass (ic.nodeHash i) ∧ uslCutoff < (grids c.g).mass (ic.nodeHash i) := by
    intro i h0
    have hpos : 0 < (grids c.g).mass (ic.nodeHash i) := by
      refine lt_of_le_of_ne (S.mass_nonneg _ _) fun e => h0 ?_
      have hz := gridSum_term_zero sv.couplings c.g _ (hnonneg _) ((S.mass c.g _).symm.trans e.symm) c hc hs rfl
      rw [e1] at hz
      exact val_zero_of_nodeMass hgc s.mass hm _ hz i rfl
    refine ⟨hpos, ?_⟩
    have := hr.cutoff c.g (ic.nodeHash i)
    rw [← S.mass] at this
    exact this hpos
  have hvel : ∀ q a, |pointSum ic (fun i => ic.shapeVal i * nodeVel uslCutoff ((grids c.g).mass (ic.nodeHash i)) ((grids c.g).momentNt (ic.nodeHash i) a)) q -
      (u (s.position q) a + st.dt * gridAccel st.mech.forces gravs c.g a)| ≤ 2 * B := by
    intro q a
    have e3 : u (s.position q) a + st.dt * gridAccel st.mech.forces gravs c.g a =
        pointSum ic (fun i => (u (s.position q) a + st.dt * gridAccel st.mech.forces gravs c.g a) * ic.shapeVal i) q := by
      rw [pointSum_mul, hgc.sum_val, mul_one]
    have e4 : 2 * B = pointSum ic (fun i => 2 * B * ic.shapeVal i) q := by
      rw [pointSum_mul, hgc.sum_val, mul_one]
    rw [e3, e4, ← pointSum_sub]
    refine pointSum_abs_le ic _ _ q fun i hi => ?_
    by_cases h0 : ic.shapeVal i = 0
    · simp [h0]
    · obtain ⟨hpos, hcut⟩ := hnode i h0
      have hn := hgc.val_nonneg i
      rw [mul_comm _ (ic.shapeVal i), mul_comm _ (ic.shapeVal i), ← mul_sub, abs_mul, abs_of_nonneg hn]
      refine mul_le_mul_of_nonneg_left ?_ hn
      have e5 : nodeVel uslCutoff ((grids c.g).mass (ic.nodeHash i)) ((grids c.g).momentNt (ic.nodeHash i) a) =
          (grids c.g).moment (ic.nodeHash i) a / (grids c.g).mass (ic.nodeHash i) + st.dt * gridAccel st.mech.forces gravs c.g a := by
        rw [nodeVel, if_pos hcut, if_pos hcut, S.momentNt c hc hs]
        simp only [hforce]
        field_simp
      have e6 : |(grids c.g).moment (ic.nodeHash i) a / (grids c.g).mass (ic.nodeHash i) - u ((sv.domains c.g).positionStack (ic.nodeHash i)) a| ≤ B := by
        have := hmom c hc hs (ic.nodeHash i) a
        rw [div_sub' hpos.ne', abs_div, abs_of_pos hpos, div_le_iff₀ hpos, mul_comm B]
        exact this
      have e7 := hdist c hc hs s e1 i h0 a
      rw [show (compute c.ker (sv.domains c.g) s.position).pointId i = q from hi] at e7
      rw [e5, add_sub_add_right_eq_sub]
      refine (abs_sub_le _ (u ((sv.domains c.g).positionStack (ic.nodeHash i)) a) _).trans ?_
      rw [two_mul]
      exact add_le_add e6 e7
  have hdelta : ∀ q a, pointSum ic (fun i => ic.shapeVal i * (nodeVel uslCutoff ((grids c.g).mass (ic.nodeHash i)) ((grids c.g).momentNt (ic.nodeHash i) a) -
      nodeVel uslCutoff ((grids c.g).mass (ic.nodeHash i)) ((grids c.g).moment (ic.nodeHash i) a))) q = st.dt * gridAccel st.mech.forces gravs c.g a := by
    intro q a
    have e3 : st.dt * gridAccel st.mech.forces gravs c.g a = pointSum ic (fun i => (st.dt * gridAccel st.mech.forces gravs c.g a) * ic.shapeVal i) q := by
      rw [pointSum_mul, hgc.sum_val, mul_one]
    rw [e3]
    refine congrArg (pointSum ic · q) (funext fun i => ?_)
    by_cases h0 : ic.shapeVal i = 0
    · rw [h0, zero_mul, mul_zero]
    · obtain ⟨hpos, hcut⟩ := hnode i h0
      rw [mul_comm]
      congr 1
      rw [nodeVel, nodeVel, if_pos hcut, if_pos hcut, if_pos hcut, S.momentNt c hc hs]
      simp only [hforce]
      field_simp
      ring
  have hrel := (law_fold hL st.dt sv.couplings x3 x4 S.law).2 c.p
  rw [e2] at hrel
  rw [S.world']
  cases hb4 : x4.world.bodies c.p with
  | rigid r => rw [hb4] at hrel; exact hrel.elim
  | deformable s' =>
    rw [hb4] at hrel
    obtain ⟨-, r2, r3, -⟩ := hrel
    refine ⟨s, s', e1, rfl, fun q a => ⟨?_, ?_⟩⟩
    · rw [r3]
      have := hvel q a
      simp only [g2pBody, ghostBlend, resetBody]
      rw [mul_comm _ st.dt, add_sub_add_left_eq_sub, ← mul_sub, abs_mul]
      refine mul_le_mul_of_nonneg_left (this.trans (le_of_eq ?_)) (abs_nonneg _)
      rw [hB]; ring
    · rw [r2]
      have := hvel q a
      simp only [g2pBody, ghostBlend, resetBody]
      rw [hdelta, ht.velocity c hc hs s e1 q]
      have e8 : ∀ X Y α : K, (1 - α) * X + α * Y - Y = (1 - α) * (X - Y) := fun X Y α => by ring
      rw [e8, abs_mul]
      refine mul_le_mul_of_nonneg_left (this.trans (le_of_eq ?_)) (abs_nonneg _)
      rw [hB]; ring

end

/-! ### Smooth fields -/

/-- Fields with a gradient that changes by at most `M` per length are smooth in the sense used here. -/
theorem smooth_of_gradient {dim : ℕ} {u : (Fin dim → ℝ) → ℝ} {G : (Fin dim → ℝ) → Fin dim → ℝ} {M : ℝ} (hM : 0 ≤ M)
    (hu : ∀ x d, ∀ t : ℝ, HasDerivAt (fun t => u (x + t • d)) (∑ a, G (x + t • d) a * d a) t)
    (hG : ∀ x y, ∑ a, (G y a - G x a) ^ 2 ≤ M ^ 2 * ∑ a, (y a - x a) ^ 2) : Smooth u G M := by
  intro x y
  set d := y - x with hd
  set D := ∑ a, (y a - x a) ^ 2 with hD
  have hD0 : 0 ≤ D := Finset.sum_nonneg fun a _ => sq_nonneg _
  have hDd : ∑ a, d a ^ 2 = D := rfl
  have hc : ∀ t : ℝ, 0 ≤ t → |∑ a, G (x + t • d) a * d a - ∑ a, G x a * d a| ≤ M * t * D := by
    intro t ht
    rw [← Finset.sum_sub_distrib]
    simp only [← sub_mul]
    refine abs_le_of_sq_le_sq ?_ (by positivity)
    refine (Finset.sum_mul_sq_le_sq_mul_sq _ _ _).trans ?_
    rw [hDd]
    have h1 := hG x (x + t • d)
    have h2 : ∑ a, ((x + t • d) a - x a) ^ 2 = t ^ 2 * D := by
      rw [← hDd, Finset.mul_sum]
      refine Finset.sum_congr rfl fun a _ => ?_
      simp [mul_pow]
    rw [h2] at h1
    calc _ ≤ M ^ 2 * (t ^ 2 * D) * D := mul_le_mul_of_nonneg_right h1 hD0
      _ = _ := by ring
  have key : ∀ σ : ℝ, |σ| = 1 → σ * (u y - u x - ∑ a, G x a * d a) ≤ M / 2 * D := by
    intro σ hσ
    have hder : ∀ t : ℝ, HasDerivAt (fun t => σ * (u (x + t • d) - t * ∑ a, G x a * d a) - M / 2 * D * t ^ 2)
        (σ * (∑ a, G (x + t • d) a * d a - 1 * ∑ a, G x a * d a) - M / 2 * D * (((2 : ℕ) : ℝ) * t ^ (2 - 1) * 1)) t := fun t =>
      ((((hu x d t).sub ((hasDerivAt_id t).mul_const _)).const_mul σ).sub (((hasDerivAt_id t).pow 2).const_mul _))
    have hanti : AntitoneOn (fun t => σ * (u (x + t • d) - t * ∑ a, G x a * d a) - M / 2 * D * t ^ 2) (Set.Icc 0 1) := by
      refine antitoneOn_of_deriv_nonpos (convex_Icc 0 1) (fun t _ => (hder t).continuousAt.continuousWithinAt)
        (fun t _ => (hder t).differentiableAt.differentiableWithinAt) fun t ht => ?_
      rw [interior_Icc] at ht
      rw [(hder t).deriv]
      have h1 := hc t ht.1.le
      have h2 : σ * (∑ a, G (x + t • d) a * d a - 1 * ∑ a, G x a * d a) ≤ M * t * D := by
        rw [one_mul]
        refine (le_abs_self _).trans ?_
        rw [abs_mul, hσ, one_mul]
        exact h1
      simp only [Nat.cast_ofNat, Nat.add_one_sub_one, pow_one, mul_one]
      linarith
    have h3 := hanti (Set.left_mem_Icc.2 zero_le_one) (Set.right_mem_Icc.2 zero_le_one) zero_le_one
    simp only [one_smul, zero_smul, add_zero, hd, add_sub_cancel, one_mul, zero_mul, sub_zero, one_pow, mul_one] at h3
    have : (0 : ℝ) ^ 2 = 0 := by norm_num
    rw [this, mul_zero, sub_zero] at h3
    rw [hd]
    linarith
  have e : ∑ a, G x a * (y a - x a) = ∑ a, G x a * d a := rfl
  rw [e, abs_le]
  have h1 := key 1 abs_one
  have h2 := key (-1) (by rw [abs_neg, abs_one])
  exact ⟨by linarith, by linarith⟩

/-- The field `|x|²` is smooth. -/
theorem smooth_sq {K : Type*} [Field K] [LinearOrder K] [IsStrictOrderedRing K] {dim : ℕ} :
    Smooth (fun x : Fin dim → K => ∑ a, x a ^ 2) (fun x a => 2 * x a) 2 := by
  intro x y
  rw [← Finset.sum_sub_distrib, ← Finset.sum_sub_distrib]
  rw [Finset.sum_congr rfl fun a _ => (by ring : y a ^ 2 - x a ^ 2 - 2 * x a * (y a - x a) = (y a - x a) ^ 2)]
  rw [abs_of_nonneg (Finset.sum_nonneg fun a _ => sq_nonneg _)]
  linarith

/-- Interpolation of `|x|²` in a box of cells of size 1/10. -/
example (x : ℚ) (hx : 0 ≤ x ∧ x ≤ 1) :
    let g := GridDomain.create (dim := 2) (fun _ => (0 : ℚ)) (fun _ => 1) (1 / 10) 2
    let c := compute .cubic g (fun _ : Fin 1 => fun _ => x)
    |pointSum c (fun i => c.shapeVal i * ∑ a, g.positionStack (c.nodeHash i) a ^ 2) 0 - (x ^ 2 + x ^ 2)| ≤ 1 / 150 := by
  intro g c
  have := interpolation_error .cubic (fun _ : Fin 2 => (0 : ℚ)) (fun _ => 1) (1 / 10) (by norm_num) 2 le_rfl (fun _ : Fin 1 => fun _ => x) 0
    (fun d => hx) (by norm_num) smooth_sq
  simp only [Fin.sum_univ_two] at this ⊢
  refine this.trans (le_of_eq ?_)
  norm_num [variance]

/-- The field `x y` is smooth: its gradient `(y, x)` changes as fast as the place. -/
theorem smooth_xy : Smooth (fun x : Fin 2 → ℝ => x 0 * x 1) (fun x => ![x 1, x 0]) 1 := by
  refine smooth_of_gradient zero_le_one (fun x d t => ?_) fun x y => le_of_eq ?_
  · have h : ∀ a, HasDerivAt (fun t : ℝ => (x + t • d) a) (d a) t := fun a => by
      simpa using ((hasDerivAt_id t).mul_const (d a)).const_add (x a)
    have := (h 0).mul (h 1)
    exact this.congr_deriv (by simp [Fin.sum_univ_two]; ring)
  · simp only [Fin.sum_univ_two, Matrix.cons_val_zero, Matrix.cons_val_one]
    ring

/-- Gradients of `x y` in a box of cells of size 1/10 with the quadratic kernel. -/
example (x : Fin 2 → ℝ) (hx : InBox (fun _ => 0) (fun _ => 1) x) :
    let g := GridDomain.create (dim := 2) (fun _ => (0 : ℝ)) (fun _ => 1) (1 / 10) 2
    let c := compute .quadratic g (fun _ : Fin 1 => x)
    |pointSum c (fun i => c.shapeGrad i 0 * (g.positionStack (c.nodeHash i) 0 * g.positionStack (c.nodeHash i) 1)) 0 - x 1| ≤ 9 / 20 := by
  intro g c
  have := gradient_error (.inl rfl) .quadratic (fun _ : Fin 2 => (0 : ℝ)) (fun _ => 1) (1 / 10) (by norm_num) 2 le_rfl (fun _ : Fin 1 => x) 0
    hx (by simp) zero_le_one smooth_xy 0
  refine (this.trans (le_of_eq ?_))
  norm_num [reach]

/-! ### Gradients that finer grids do not improve -/

/-- One stress-free point that moves with the velocity field `u(x) = x`, on a grid of cells of size `h`. -/
noncomputable def lonePoint (h : ℝ) : MPState ℝ 2 1 :=
  { pointAt 0 with position := fun _ _ => 2 * h, velocity := fun _ _ => 2 * h, stress := fun _ => 0 }

noncomputable def loneSt (h : ℝ) : SimState { exSz with np := fun _ => 1 } ℝ 2 Unit (LawState ℝ) (ForceState ℝ 2) :=
  { thrownSt 0 with world := { bodies := fun _ => .deformable (lonePoint h), sdfs := Fin.elim0 } }

noncomputable def loneSv (h : ℝ) : Solver { exSz with np := fun _ => 1 } ℝ 2 Unit (LawState ℝ) (ForceState ℝ 2) :=
  { thrownSv with
    domains := fun _ => GridDomain.create (fun _ => 0) (fun _ => 4 * h) h 2, laws := fun _ => elasticLaw 1000 (1 / 4) false, forces := gravityList [] }

theorem lone_mass {h : ℝ} (hh : 0 < h) (j : ℕ) :
    nodeMass (compute .quadratic (GridDomain.create (fun _ => 0) (fun _ => 4 * h) h 2) (lonePoint h).position) (fun _ => (1 : ℝ)) j ∈
      AddSubgroup.zmultiples (1 / 64 : ℝ) := by
  have hg : ∀ d, 0 < (GridDomain.create (fun _ : Fin 2 => (0 : ℝ)) (fun _ => 4 * h) h 2).gridSize d :=
    create_gridSize_pos _ _ _ hh _ (fun _ => by positivity)
  have h2 := scatter_nodes (.inl rfl) .quadratic _ hg (lonePoint h).position (fun _ I => I.shapeVal * 1) (fun p I h _ => by rw [h, zero_mul]) j
  change scatterAdd _ _ _ ∈ _
  refine Eq.mpr (congrArg (· ∈ AddSubgroup.zmultiples (1 / 64 : ℝ)) h2) (sum_mem fun p _ => sum_mem fun k _ => ?_)
  split_ifs
  · obtain ⟨a, ha⟩ := quadratic_eighths (4 - (k 0 : ℕ))
    obtain ⟨b, hb⟩ := quadratic_eighths (4 - (k 1 : ℕ))
    refine AddSubgroup.mem_zmultiples_iff.2 ⟨a * b, ?_⟩
    have e1 : ∀ d, basePos (GridDomain.create (fun _ => 0) (fun _ => 4 * h) h 2) ((lonePoint h).position p) d = 4 := fun d => by
      simp only [basePos, GridDomain.create, lonePoint]
      push_cast
      field_simp
      ring
    have e0 : (nodeInter .quadratic (GridDomain.create (fun _ => 0) (fun _ => 4 * h) h 2) ((lonePoint h).position p) fun d => (k d : ℕ)).shapeVal =
        quadraticBasis (4 - ((k 0 : ℕ) : ℝ)) * quadraticBasis (4 - ((k 1 : ℕ) : ℝ)) := by
      simp only [nodeInter, e1, Fin.prod_univ_two, basis1]
    push_cast at ha hb
    rw [e0, ha, hb, zsmul_eq_mul]
    push_cast; ring
  · exact zero_mem _

theorem lone_regular {h : ℝ} (hh : 0 < h) : Regular uslCutoff (loneSv h) (loneSt h).world where
  single := by simp [loneSv, thrownSv]
  box c hc _ := ⟨_, _, _, _, hh, le_rfl, rfl, fun q d => by
    constructor
    · change (0 : ℝ) ≤ 2 * h; positivity
    · change 2 * h ≤ 4 * h; linarith⟩
  mass_pos c hc _ s hb q := by
    cases hb; exact one_pos
  cutoff g j h0 := by
    have e1 : gridSum (loneSv h).couplings g (fun c => ((loneSt h).world.bodies c.p).nodeMass c.ker ((loneSv h).domains c.g) j) =
        nodeMass (compute .quadratic (GridDomain.create (fun _ => 0) (fun _ => 4 * h) h 2) (lonePoint h).position) (fun _ => (1 : ℝ)) j := by
      have : g = 0 := Subsingleton.elim _ _
      subst this
      simp only [gridSum, loneSv, thrownSv, List.map_cons, List.map_nil, List.sum_cons, List.sum_nil, add_zero, true_and, if_true]
      rfl
    rw [e1] at h0 ⊢
    obtain ⟨k, hk⟩ := AddSubgroup.mem_zmultiples_iff.1 (lone_mass hh j)
    rw [zsmul_eq_mul] at hk
    rw [← hk] at h0 ⊢
    have hk0 : (0 : ℝ) < k := by linarith
    have : (1 : ℝ) ≤ k := by exact_mod_cast (by exact_mod_cast hk0 : (0 : ℤ) < k)
    unfold uslCutoff
    norm_num
    linarith

/-- **C152**, refuted for the velocity gradients that the laws see, however fine the grid: a lone point in the expanding velocity field
`u(x) = x`, with gradient one, gets the gradient zero with every size of the cells. -/
theorem gradient_not_improved {h : ℝ} (hh : 0 < h) : ∃ st' s', uslCall realFns (loneSv h) (loneSt h) = .ok st' ∧
    st'.world.bodies (0 : Fin 1) = .deformable s' ∧ Carried (loneSv h) (fun x => x) (loneSt h).world ∧ s'.L 0 = 0 := by
  obtain ⟨st', hst⟩ : ∃ y, uslCall realFns (loneSv h) (loneSt h) = .ok y := ⟨_, rfl⟩
  obtain ⟨-, hb⟩ := fall_step (Q := fun _ _ => True) [] (fun _ _ => 2 * h) (.inl rfl) rfl
    (fun _ => LibLaw.onlyStress (.elastic 1000 (1 / 4) false)) (fun _ => elastic_staysAtRest 1000 (1 / 4) false) (fun _ => rfl) hst
    (lone_regular hh) ⟨fun c hc _ s hb => by
      cases hb
      exact ⟨fun _ => rfl, fun _ => rfl, fun _ p => by simp [lonePoint, pointAt], fun p => by simp [lonePoint, pointAt]⟩, fun _ => trivial⟩
  obtain ⟨s, s', e1, e2, -, hL⟩ := hb { ker := .quadratic, p := (0 : Fin 1), g := (0 : Fin 1), c := (0 : Fin 1), s := (0 : Fin 1), skip := false }
    (List.mem_singleton.2 rfl) rfl
  refine ⟨st', s', hst, e2, ⟨fun c hc _ s hb q => ?_, fun c hc _ s hb q => ?_⟩, hL 0⟩
  · cases hb; rfl
  · cases hb; rfl

/-- `step_error` on the lone point. -/
example {h : ℝ} (hh : 0 < h) : ∃ st' s', uslCall realFns (loneSv h) (loneSt h) = .ok st' ∧ st'.world.bodies (0 : Fin 1) = .deformable s' ∧
    |s'.position 0 0 - (2 * h + 1 / 100 * (2 * h))| ≤ 1 / 100 * (6 * h) := by
  obtain ⟨st', hst⟩ : ∃ y, uslCall realFns (loneSv h) (loneSt h) = .ok y := ⟨_, rfl⟩
  obtain ⟨-, -, -, -, hC, -⟩ := gradient_not_improved hh
  obtain ⟨s, s', e1, e2, hb⟩ := step_error (r := 3 / 2) (Λ := 1) [] (.inl rfl) rfl (fun _ => LibLaw.onlyStress (.elastic 1000 (1 / 4) false)) hst (lone_regular hh)
    zero_le_one (fun a x y => by
      rw [one_mul]
      exact Finset.single_le_sum (f := fun a => |y a - x a|) (fun _ _ => abs_nonneg _) (Finset.mem_univ a))
    (fun c hc => by
      rw [List.mem_singleton.1 (show c ∈ [_] from hc)]
      norm_num [reach]) hC
    { ker := .quadratic, p := (0 : Fin 1), g := (0 : Fin 1), c := (0 : Fin 1), s := (0 : Fin 1), skip := false } (List.mem_singleton.2 rfl) rfl
  refine ⟨st', s', hst, e2, ?_⟩
  have := (hb 0 0).1
  have e1 := Body.deformable.inj e1
  subst e1
  have hdt : (loneSt h).dt = 1 / 100 := rfl
  have hx : (lonePoint h).position 0 = fun _ => 2 * h := rfl
  have hcell : ((loneSv h).domains (0 : Fin 1)).cellSize = h := rfl
  have hacc : gridAccel (z := { exSz with np := fun _ => 1 }) (loneSt h).mech.forces [] (0 : Fin 1) 0 = (0 : ℝ) := by simp [gridAccel]
  simp only [hdt, hx, hcell] at this
  erw [hacc] at this
  rw [mul_zero, add_zero, abs_of_nonneg (by norm_num : (0 : ℝ) ≤ 1 / 100)] at this
  refine this.trans (le_of_eq ?_)
  push_cast
  ring

end Hydrax
