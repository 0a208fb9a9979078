import Verif.Props.Gather

/-!
# Property C73: the deformation gradient follows the motion
-/

set_option linter.unusedSectionVars false

namespace Hydrax
open Spec

section
variable {K : Type*} [Field K] [LinearOrder K] [IsStrictOrderedRing K] [FloorRing K] {dim n : ℕ}

/-- `F` carries the material vector `X` to the vector `x` of the (two- or three-dimensional) space. -/
def Spec.Carries (F : Mat3 K) (X : Fin 3 → K) (x : Fin dim → K) : Prop :=
  ∀ i : Fin dim, ∀ h : i.val < 3, x i = ∑ k, F ⟨i, h⟩ k * X k

/-- Interpolation at a point of nodal velocities that form an affine field. -/
theorem affine_gather_val (ker : Kernel) (o e : Fin dim → K)
    (h : K) (hh : 0 < h) (pad : ℕ) (hpad : 2 ≤ pad) (pos : Fin n → Fin dim → K)
    (p : Fin n) (hx : InBox o e (pos p))
    (cut : K) (hcut : 0 ≤ cut) (gr : GridArrays K dim) (b : Fin dim → K) (A : Fin dim → Fin dim → K)
    (hA : AffineNodes cut (GridDomain.create o e h pad)
      (compute ker (GridDomain.create o e h pad) pos) gr p b A) (a : Fin dim) :
    let g := GridDomain.create o e h pad
    let c := compute ker g pos
    pointSum c (fun i => c.shapeVal i *
      nodeVel cut (gr.mass (c.nodeHash i)) (gr.momentNt (c.nodeHash i) a)) p = b a + ∑ k, A a k * pos p k := by
  intro g c
  rw [← affine_field_reproduced ker o e h hh pad hpad pos p hx (b a) (A a)]
  unfold pointSum
  refine Finset.sum_congr rfl fun i hi => ?_
  have hip : c.pointId i = p := (Finset.mem_filter.mp hi).2
  by_cases h0 : c.shapeVal i = 0
  · change c.shapeVal i * _ = c.shapeVal i * _
    rw [h0, zero_mul, zero_mul]
  · have hm := hA.2 i hip h0
    change _ * nodeVel cut (gr.mass (c.nodeHash i)) (gr.momentNt (c.nodeHash i) a) = _
    rw [hA.1 _ hm a]
    unfold nodeVel
    rw [if_pos (by exact hm), if_pos (by exact hm), mul_div_cancel_left₀ _ (lt_of_le_of_lt hcut hm).ne']

/-- An updated `F` carries the deformed material vectors, if the `L` of the update is minus the velocity gradient. -/
theorem carries_update (hdim : dim = 2 ∨ dim = 3) (dt : K) (L F : Mat3 K) (A : Fin dim → Fin dim → K)
    (hL : ∀ i j : Fin dim, L ⟨i, by omega⟩ ⟨j, by omega⟩ = -A i j)
    (hL2 : dim = 2 → ∀ i : Fin dim, L ⟨i, by omega⟩ 2 = 0)
    (X : Fin 3 → K) (x : Fin dim → K) (hx : Carries F X x) :
    Carries (if dim = 2 then set22 ((1 - dt • L) * F) 1 else (1 - dt • L) * F) X
      (fun i => x i + dt * ∑ j, A i j * x j) := by
  intro i hi
  have hrow : ∀ k, (if dim = 2 then set22 ((1 - dt • L) * F) 1 else (1 - dt • L) * F) ⟨i, hi⟩ k =
      ((1 - dt • L) * F) ⟨i, hi⟩ k := by
    intro k
    split_ifs with hd
    · unfold set22
      rw [if_neg]
      rintro ⟨h1, -⟩
      have := congrArg Fin.val h1
      simp at this
      omega
    · rfl
  simp only [hrow]
  have hF : ∑ k, ((1 - dt • L) * F) ⟨i, hi⟩ k * X k =
      (∑ k, F ⟨i, hi⟩ k * X k) - dt * ∑ j, L ⟨i, hi⟩ j * ∑ k, F j k * X k := by
    have : ∀ k, ((1 - dt • L) * F) ⟨i, hi⟩ k = F ⟨i, hi⟩ k - dt * ∑ j, L ⟨i, hi⟩ j * F j k := by
      intro k
      rw [Matrix.sub_mul, Matrix.one_mul, Matrix.smul_mul]
      simp [Matrix.mul_apply]
    simp only [this, sub_mul, Finset.sum_sub_distrib, mul_assoc, ← Finset.mul_sum]
    congr 2
    simp only [Finset.sum_mul, Finset.mul_sum]
    rw [Finset.sum_comm]
    simp only [mul_assoc]
  rw [hF, ← hx i hi, sub_eq_add_neg]
  congr 1
  rw [← mul_neg, ← Finset.sum_neg_distrib]
  congr 1
  rcases hdim with rfl | rfl
  · have h2 := hL2 rfl i
    simp only [Fin.sum_univ_two]
    rw [Fin.sum_univ_three]
    have e0 : ∑ k, F 0 k * X k = x 0 := (hx 0 (by simp)).symm
    have e1 : ∑ k, F 1 k * X k = x 1 := (hx 1 (by simp)).symm
    have l0 : L ⟨i, hi⟩ 0 = -A i 0 := hL i 0
    have l1 : L ⟨i, hi⟩ 1 = -A i 1 := hL i 1
    rw [e0, e1, l0, l1, h2]
    ring
  · refine Finset.sum_congr rfl fun j _ => ?_
    have e : ∑ k, F j k * X k = x j := (hx j j.isLt).symm
    have l : L ⟨i, hi⟩ j = -A i j := hL i j
    rw [e, l]
    ring

/-- Out-of-plane gradients are zero. -/
theorem compute_grad_ge (ker : Kernel) (g : GridDomain K dim) (pos : Fin n → Fin dim → K)
    (i : Fin (n * windowSize ker dim)) (k : Fin 3) (hk : ¬ k.val < dim) : (compute ker g pos).shapeGrad i k = 0 := by
  change (computeSingle ker g (pos i.divNat) i.modNat).shapeGrad k = 0
  by_cases hv : isValid g.gridSize (nodeIdx ker g (pos i.divNat) i.modNat)
  · rw [computeSingle_grad ker g _ _ hv]
    exact pad3_ge _ k hk
  · simp only [computeSingle, if_neg hv]

theorem pointSum_eq_zero {w : ℕ} (c : InteractionCache K n w) (f : Fin (n * w) → K) (p : Fin n) (h : ∀ i, f i = 0) :
    pointSum c f p = 0 := Finset.sum_eq_zero fun i _ => h i

/-- Two matrices that agree in the plane and vanish outside it are equal. -/
theorem mat3_ext_plane {L M : Mat3 K} (h : ∀ i j : Fin 3, i.val < dim → j.val < dim → L i j = M i j)
    (hL : ∀ i j : Fin 3, ¬ (i.val < dim ∧ j.val < dim) → L i j = 0)
    (hM : ∀ i j : Fin 3, ¬ (i.val < dim ∧ j.val < dim) → M i j = 0) : L = M := by
  funext i j
  by_cases hij : i.val < dim ∧ j.val < dim
  · exact h i j hij.1 hij.2
  · rw [hL i j hij, hM i j hij]

theorem set22_plane_zero {M : Mat3 K} (hM : ∀ i j : Fin 3, ¬ (i.val < dim ∧ j.val < dim) → M i j = 0) :
    ∀ i j : Fin 3, ¬ (i.val < dim ∧ j.val < dim) → (if dim = 2 then set22 M 0 else M) i j = 0 := by
  intro i j h
  split_ifs
  · unfold set22
    split_ifs
    · rfl
    · exact hM i j h
  · exact hM i j h

/-- **C73** (ASFLIP). Two points `p`, `q` of a body whose nodes carry the affine velocity field `b + A x`, with the same
deformation gradient: if it carries the material vector `X` to `x_q - x_p`, then after the transfer the new deformation
gradient carries `X` to the new `x_q - x_p`. -/
theorem aflip_deformation_follows (hdim : dim = 2 ∨ dim = 3) (ker : Kernel) (o e : Fin dim → K)
    (h : K) (hh : 0 < h) (pad : ℕ) (hpad : 2 ≤ pad) (s : MPState K dim n)
    (p q : Fin n) (hx : ∀ r, r = p ∨ r = q → InBox o e (s.position r))
    (hlin : ker = .linear → ∀ r, r = p ∨ r = q → ∀ d, ∀ z : ℤ, (s.position r d - o d) / h ≠ z)
    (sqrt : K → K) (pr : AflipParams K) (hcut : 0 ≤ pr.cutoff) (hbeta : pr.betaMin = 0 ∧ pr.betaMax = 0)
    (gr : GridArrays K dim) (b : Fin dim → K) (A : Fin dim → Fin dim → K)
    (hA : ∀ r, r = p ∨ r = q → AffineNodes pr.cutoff (GridDomain.create o e h pad)
      (compute ker (GridDomain.create o e h pad) s.position) gr r b A) (dt : K)
    (r : MPState K dim n × (Fin n → Mat3 K))
    (hr : aflipG2pBody sqrt pr h dt (compute ker (GridDomain.create o e h pad) s.position) gr s = .ok r)
    (X : Fin 3 → K) (hF : s.F p = s.F q)
    (hX : Carries (s.F p) X (fun a => s.position q a - s.position p a)) :
    r.1.F p = r.1.F q ∧ Carries (r.1.F p) X (fun a => r.1.position q a - r.1.position p a) := by
  have hL := fun t (ht : t = p ∨ t = q) => aflip_velocity_gradient hdim ker o e h hh pad hpad s t (hx t ht)
    (fun hk => hlin hk t ht) sqrt pr hcut gr b A (hA t ht) dt r hr
  have hv := fun t (ht : t = p ∨ t = q) => affine_gather_val ker o e h hh pad hpad s.position t (hx t ht)
    pr.cutoff hcut gr b A (hA t ht)
  have hr' := aflipG2pBody_ok hr
  have hz : ∀ t, ∀ i j : Fin 3, ¬ (i.val < dim ∧ j.val < dim) → r.1.L t i j = 0 := by
    intro t
    rw [hr']
    refine set22_plane_zero fun i j hij => ?_
    refine pointSum_eq_zero _ _ _ fun k => ?_
    by_cases hi : i.val < dim
    · rw [compute_grad_ge ker _ _ k j (fun hj => hij ⟨hi, hj⟩), mul_zero, neg_zero]
    · rw [pad3_ge _ i hi, zero_mul, neg_zero]
  have hLpq : r.1.L p = r.1.L q := by
    refine mat3_ext_plane (dim := dim) (fun i j hi hj => ?_) (hz p) (hz q)
    exact (hL p (.inl rfl) ⟨i, hi⟩ ⟨j, hj⟩).trans (hL q (.inr rfl) ⟨i, hi⟩ ⟨j, hj⟩).symm
  have hFn : ∀ t, r.1.F t = if dim = 2 then set22 ((1 - dt • r.1.L t) * s.F t) 1 else (1 - dt • r.1.L t) * s.F t := by
    intro t; rw [hr']; rfl
  have hpos : ∀ t, t = p ∨ t = q → ∀ a, r.1.position t a = s.position t a + dt * (b a + ∑ k, A a k * s.position t k) := by
    intro t ht a
    rw [← hv t ht a, hr']
    simp only [aflipG2pMls, aflipGather, hbeta.1, hbeta.2, ite_self, mul_zero, zero_mul, add_zero]
  refine ⟨by rw [hFn, hFn, hLpq, hF], ?_⟩
  rw [hFn]
  have key := carries_update hdim dt (r.1.L p) (s.F p) A (hL p (.inl rfl)) (by
    rintro rfl i
    exact hz p _ _ (by simp)) X _ hX
  intro i hi
  rw [← key i hi]
  beta_reduce
  rw [hpos q (.inr rfl), hpos p (.inl rfl)]
  simp only [mul_sub, Finset.sum_sub_distrib]
  ring

/-- **C73** (USL, partial). The same for the USL transfer when the velocity gradient is symmetric. Missing: gradients with
a rotational part, for which it is false (`usl_deformation_wrong`), because `L` is stored transposed. -/
theorem usl_deformation_follows_partial (hdim : dim = 2 ∨ dim = 3) (ker : Kernel) (o e : Fin dim → K)
    (h : K) (hh : 0 < h) (pad : ℕ) (hpad : 2 ≤ pad) (s : MPState K dim n)
    (p q : Fin n) (hx : ∀ r, r = p ∨ r = q → InBox o e (s.position r))
    (hlin : ker = .linear → ∀ r, r = p ∨ r = q → ∀ d, ∀ z : ℤ, (s.position r d - o d) / h ≠ z)
    (gr : GridArrays K dim) (b : Fin dim → K) (A : Fin dim → Fin dim → K) (hsym : ∀ i j, A i j = A j i)
    (hA : ∀ r, r = p ∨ r = q → AffineNodes uslCutoff (GridDomain.create o e h pad)
      (compute ker (GridDomain.create o e h pad) s.position) gr r b A) (alpha dt : K)
    (X : Fin 3 → K) (hF : s.F p = s.F q)
    (hX : Carries (s.F p) X (fun a => s.position q a - s.position p a)) :
    let s' := g2pBody alpha dt (compute ker (GridDomain.create o e h pad) s.position) none gr s
    s'.F p = s'.F q ∧ Carries (s'.F p) X (fun a => s'.position q a - s'.position p a) := by
  intro s'
  have hc : (0 : K) ≤ uslCutoff := by unfold uslCutoff; positivity
  have hL : ∀ t, t = p ∨ t = q → ∀ i j : Fin dim, s'.L t ⟨i, by omega⟩ ⟨j, by omega⟩ = -A i j := by
    intro t ht i j
    rw [hsym i j]
    exact usl_velocity_gradient_transposed hdim ker o e h hh pad hpad s t (hx t ht)
      (fun hk => hlin hk t ht) gr b A (hA t ht) alpha dt i j
  have hv := fun t (ht : t = p ∨ t = q) => affine_gather_val ker o e h hh pad hpad s.position t (hx t ht)
    uslCutoff hc gr b A (hA t ht)
  have hz : ∀ t, ∀ i j : Fin 3, ¬ (i.val < dim ∧ j.val < dim) → s'.L t i j = 0 := by
    intro t
    refine set22_plane_zero fun i j hij => ?_
    refine pointSum_eq_zero _ _ _ fun k => ?_
    by_cases hi : i.val < dim
    · rw [pad3_ge _ j (fun hj => hij ⟨hi, hj⟩), neg_zero, mul_zero]
    · rw [compute_grad_ge ker _ _ k i hi, zero_mul]
  have hLpq : s'.L p = s'.L q := by
    refine mat3_ext_plane (dim := dim) (fun i j hi hj => ?_) (hz p) (hz q)
    exact (hL p (.inl rfl) ⟨i, hi⟩ ⟨j, hj⟩).trans (hL q (.inr rfl) ⟨i, hi⟩ ⟨j, hj⟩).symm
  have hFn : ∀ t, s'.F t = if dim = 2 then set22 ((1 - dt • s'.L t) * s.F t) 1 else (1 - dt • s'.L t) * s.F t :=
    fun t => rfl
  have hpos : ∀ t, t = p ∨ t = q → ∀ a, s'.position t a = s.position t a + dt * (b a + ∑ k, A a k * s.position t k) := by
    intro t ht a
    rw [← hv t ht a, mul_comm dt]
    rfl
  refine ⟨by rw [hFn, hFn, hLpq, hF], ?_⟩
  rw [hFn]
  have key := carries_update hdim dt (s'.L p) (s.F p) A (hL p (.inl rfl)) (by
    rintro rfl i
    exact hz p _ _ (by simp)) X _ hX
  intro i hi
  rw [← key i hi]
  beta_reduce
  rw [hpos q (.inr rfl), hpos p (.inl rfl)]
  simp only [mul_sub, Finset.sum_sub_distrib]
  ring

end

/-- Nodal state of planar extension `v = (x, -y)`. -/
def extGrid : GridArrays ℚ 2 :=
  { mass := fun _ => 1
    moment := fun _ _ => 0
    momentNt := fun j a => (if a = 0 then 1 else -1) *
      (GridDomain.create (fun _ => (0:ℚ)) (fun _ : Fin 2 => 1) (1/4) 2).positionStack j a
    force := fun _ _ => 0 }

theorem extGrid_affine (ker : Kernel) (s : MPState ℚ 2 n) (p : Fin n) (cut : ℚ) (hcut : cut < 1) :
    AffineNodes cut (GridDomain.create (fun _ => (0:ℚ)) (fun _ => 1) (1/4) 2)
      (compute ker (GridDomain.create (fun _ => (0:ℚ)) (fun _ => 1) (1/4) 2) s.position) extGrid p
      (fun _ => 0) (fun a k => if a = k then (if a = 0 then 1 else -1) else 0) := by
  refine ⟨fun j _ a => ?_, fun _ _ _ => hcut⟩
  simp only [extGrid, Fin.sum_univ_two]
  fin_cases a <;> simp

/-- The material vector between the two points of the (undeformed) example body. -/
def exX : Fin 3 → ℚ := ![1 / 6, -13 / 20, 0]

theorem exX_carries : Carries (exBody.F 0) exX (fun a => exBody.position 1 a - exBody.position 0 a) := by
  intro i hi
  have hF : exBody.F 0 = 1 := rfl
  rw [hF, Fin.sum_univ_three]
  fin_cases i <;> norm_num [exBody, MPState.create, exX, Matrix.one_apply]
  all_goals exact fun _ => rfl

/-- `aflip_deformation_follows` in simple shear. -/
example (sqrt : ℚ → ℚ) : ∃ r, aflipG2pBody sqrt exAflip (1/4) (1/100) (compute .quadratic
    (GridDomain.create (fun _ => (0:ℚ)) (fun _ => 1) (1/4) 2) exBody.position) shearGrid exBody = .ok r ∧
    Carries (r.1.F 0) exX (fun a => r.1.position 1 a - r.1.position 0 a) :=
  ⟨_, rfl, (aflip_deformation_follows (.inl rfl) .quadratic (fun _ => (0:ℚ)) (fun _ => 1) (1/4)
    (by norm_num) 2 le_rfl exBody 0 1 (fun r _ => exBody_inBox r) (by simp) sqrt exAflip (by norm_num [exAflip])
    ⟨rfl, rfl⟩ shearGrid _ _ (fun r _ => shearGrid_affine .quadratic exBody r _ (by norm_num [exAflip])) (1/100) _ rfl
    exX rfl exX_carries).2⟩

/-- `usl_deformation_follows_partial` in planar extension. -/
example := usl_deformation_follows_partial (.inl rfl) .cubic (fun _ => (0:ℚ)) (fun _ => 1) (1/4)
    (by norm_num) 2 le_rfl exBody 0 1 (fun r _ => exBody_inBox r) (by simp) extGrid _ _
    (fun i j => by by_cases h : i = j <;> simp [h, eq_comm])
    (fun r _ => extGrid_affine .cubic exBody r uslCutoff (by norm_num [uslCutoff])) 1 (1/100) exX rfl exX_carries

/-- **C73** is false for the USL solver: in simple shear the material vector between the two points of the undeformed
example body is not carried to their new distance. -/
theorem usl_deformation_wrong :
    let g := GridDomain.create (fun _ => (0:ℚ)) (fun _ : Fin 2 => 1) (1/4) 2
    let s' := g2pBody 0 1 (compute .cubic g exBody.position) none shearGrid exBody
    ¬ Carries (s'.F 0) exX (fun a => s'.position 1 a - s'.position 0 a) := by
  intro g s' hC
  have hv := fun t => affine_gather_val .cubic (fun _ => (0:ℚ)) (fun _ => 1) (1/4)
    (by norm_num) 2 le_rfl exBody.position t (exBody_inBox t) uslCutoff (by norm_num [uslCutoff]) shearGrid _ _
    (shearGrid_affine .cubic exBody t uslCutoff (by norm_num [uslCutoff]))
  have key := usl_velocity_gradient_transposed (.inl rfl) .cubic (fun _ => (0:ℚ)) (fun _ => 1) (1/4)
    (by norm_num) 2 le_rfl exBody 0 (exBody_inBox 0) (by simp) shearGrid _ _
    (shearGrid_affine .cubic exBody 0 uslCutoff (by norm_num [uslCutoff])) 0 1
  have h0 := hC 0 (by norm_num)
  have hp : ∀ t, s'.position t 0 = exBody.position t 0 + exBody.position t 1 := by
    intro t
    have := hv t 0
    have e : s'.position t 0 = exBody.position t 0 + pointSum (compute .cubic g exBody.position) (fun i =>
      (compute .cubic g exBody.position).shapeVal i * nodeVel uslCutoff (shearGrid.mass
        ((compute .cubic g exBody.position).nodeHash i)) (shearGrid.momentNt
        ((compute .cubic g exBody.position).nodeHash i) 0)) t * 1 := rfl
    rw [e, this]
    simp
  have hF : ∀ k, s'.F 0 0 k = ((1 - (1:ℚ) • s'.L 0) * (1 : Mat3 ℚ)) 0 k := by
    intro k
    change set22 _ 1 0 k = _
    unfold set22
    rw [if_neg (by simp)]
    rfl
  have l00 : s'.L 0 0 0 = 0 := (key 0 0).trans (by simp)
  have l01 : s'.L 0 0 1 = 0 := (key 0 1).trans (by simp)
  beta_reduce at h0
  rw [hp, hp] at h0
  rw [show (⟨((0 : Fin 2) : ℕ), by norm_num⟩ : Fin 3) = 0 from rfl, Fin.sum_univ_three, hF, hF, hF] at h0
  simp only [Matrix.mul_one, Matrix.sub_apply, Matrix.smul_apply, l00, l01, Matrix.one_apply] at h0
  rw [show exX 2 = 0 from rfl] at h0
  norm_num [exX, exBody, MPState.create] at h0

end Hydrax
