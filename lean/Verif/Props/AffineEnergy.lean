import Verif.Props.Angular
import Verif.Props.Blend
import Verif.Lemmas.Fisher

/-!
# The energy of free motion in the ASFLIP solver (C139)
-/

set_option linter.unusedSectionVars false

namespace Hydrax
open Spec

section
variable {K : Type*} [Field K] [LinearOrder K] [IsStrictOrderedRing K] [FloorRing K] {dim n : ℕ}

theorem inertia_secondMoment {ker : Kernel} (hker : ker ≠ .linear) (h t : K) : inertia ker h = h ^ 2 * secondMoment ker t := by
  cases ker
  · exact absurd rfl hker
  · simp only [inertia, secondMoment]; ring
  · simp only [inertia, secondMoment]; ring

theorem inertia_nonneg (ker : Kernel) (h : K) : 0 ≤ inertia ker h := by
  unfold inertia
  cases ker <;> positivity

variable (hdim : dim = 2 ∨ dim = 3) {ker : Kernel} (o e : Fin dim → K) (h : K) (hh : 0 < h) (pad : ℕ) (hpad : 2 ≤ pad)
  (pos : Fin n → Fin dim → K)

include hh hpad in
theorem dist_first (hx : ∀ p, InBox o e (pos p)) (p : Fin n) (k : Fin 3) :
    let c := compute ker (GridDomain.create o e h pad) pos
    pointSum c (fun i => c.shapeVal i * distPhys h c i k) p = 0 := by
  intro c
  have h1 := sum_val_relDist ker o e h hh pad hpad pos hx p k
  have e1 : pointSum c (fun i => c.shapeVal i * distPhys h c i k) p = (-h) * pointSum c (fun i => c.shapeVal i * c.relDist i k) p := by
    rw [← pointSum_mul]
    refine Finset.sum_congr rfl fun i _ => ?_
    simp only [distPhys]; ring
  rw [e1, h1, mul_zero]

include hh hpad hdim in
theorem dist_second (hker : ker ≠ .linear) (hx : ∀ p, InBox o e (pos p)) (p : Fin n) (k l : Fin 3) :
    let c := compute ker (GridDomain.create o e h pad) pos
    pointSum c (fun i => c.shapeVal i * (distPhys h c i k * distPhys h c i l)) p =
      if k = l ∧ k.val < dim then inertia ker h else 0 := by
  intro c
  by_cases hk : k.val < dim
  · have h1 := pointSum_position_dist hdim ker o e h hh pad hpad pos hker hx p l ⟨k, hk⟩
    have h0 := dist_first (ker := ker) o e h hh pad hpad pos hx p l
    have e1 : pointSum c (fun i => c.shapeVal i * (distPhys h c i k * distPhys h c i l)) p =
        pointSum c (fun i => c.shapeVal i * ((GridDomain.create o e h pad).positionStack (c.nodeHash i) ⟨k, hk⟩ * distPhys h c i l)) p +
        (-pos p ⟨k, hk⟩) * pointSum c (fun i => c.shapeVal i * distPhys h c i l) p := by
      rw [← pointSum_mul, ← pointSum_add]
      refine Finset.sum_congr rfl fun i hi => ?_
      have hip : c.pointId i = p := (Finset.mem_filter.mp hi).2
      have hv := val_distPhys hdim ker o e h hh pad hpad pos i ⟨k, hk⟩
      dsimp only at hv
      change c.shapeVal i * distPhys h c i k = c.shapeVal i *
        ((GridDomain.create o e h pad).positionStack (c.nodeHash i) ⟨k, hk⟩ - pos (c.pointId i) ⟨k, hk⟩) at hv
      rw [hip] at hv
      linear_combination distPhys h c i l * hv
    rw [e1, h0, mul_zero, add_zero, h1]
    simp only [hk, and_true, Fin.ext_iff, eq_comm]
  · rw [if_neg (fun hc => hk hc.2)]
    refine Finset.sum_eq_zero fun i _ => ?_
    rw [distPhys_ge ker h pos _ i k hk]; ring

include hh hpad hdim in
/-- What a point scatters, squared: its own velocity and its affine matrix. -/
theorem affine_scatter (hker : ker ≠ .linear) (hx : ∀ p, InBox o e (pos p)) (p : Fin n) (v : K) (B : Fin 3 → K) :
    let c := compute ker (GridDomain.create o e h pad) pos
    pointSum c (fun i => c.shapeVal i * (v - ∑ k, B k * distPhys h c i k) ^ 2) p ≤ v ^ 2 + inertia ker h * ∑ k, B k ^ 2 := by
  intro c
  have hone : pointSum c c.shapeVal p = 1 :=
    (goodCache_of_inBox hdim ker o e h hh pad hpad pos hx).sum_val p
  have e1 : pointSum c (fun i => c.shapeVal i * (v - ∑ k, B k * distPhys h c i k) ^ 2) p =
      v ^ 2 * pointSum c c.shapeVal p - 2 * v * ∑ k, B k * pointSum c (fun i => c.shapeVal i * distPhys h c i k) p +
        ∑ k, ∑ l, B k * B l * pointSum c (fun i => c.shapeVal i * (distPhys h c i k * distPhys h c i l)) p := by
    simp only [pointSum, Finset.mul_sum]
    have a2 : ∑ k, ∑ i with c.pointId i = p, 2 * v * (B k * (c.shapeVal i * distPhys h c i k)) =
        ∑ i with c.pointId i = p, ∑ k, 2 * v * (B k * (c.shapeVal i * distPhys h c i k)) := Finset.sum_comm
    have a3 : ∑ k, ∑ l, ∑ i with c.pointId i = p, B k * B l * (c.shapeVal i * (distPhys h c i k * distPhys h c i l)) =
        ∑ i with c.pointId i = p, ∑ k, ∑ l, B k * B l * (c.shapeVal i * (distPhys h c i k * distPhys h c i l)) := by
      exact (Finset.sum_congr rfl fun k _ => Finset.sum_comm).trans Finset.sum_comm
    rw [a2, a3, ← Finset.sum_sub_distrib, ← Finset.sum_add_distrib]
    refine Finset.sum_congr rfl fun i _ => ?_
    rw [Fin.sum_univ_three]
    simp only [Fin.sum_univ_three]
    ring
  rw [e1, hone, mul_one]
  have h0 : ∀ k, pointSum c (fun i => c.shapeVal i * distPhys h c i k) p = 0 := fun k =>
    dist_first (ker := ker) o e h hh pad hpad pos hx p k
  have h2 : ∀ k l, pointSum c (fun i => c.shapeVal i * (distPhys h c i k * distPhys h c i l)) p =
      if k = l ∧ k.val < dim then inertia ker h else 0 := fun k l => dist_second hdim o e h hh pad hpad pos hker hx p k l
  simp only [h0, h2, mul_zero, Finset.sum_const_zero, sub_zero]
  have : ∀ k : Fin 3, ∑ l, B k * B l * (if k = l ∧ k.val < dim then inertia ker h else 0) ≤ inertia ker h * B k ^ 2 := by
    intro k
    rw [Finset.sum_eq_single k]
    · split_ifs
      · exact le_of_eq (by ring)
      · rw [mul_zero]; exact mul_nonneg (inertia_nonneg ker h) (sq_nonneg _)
    · intro l _ hl
      rw [if_neg (fun hc => hl hc.1.symm), mul_zero]
    · intro hc; exact absurd (Finset.mem_univ k) hc
  have := Finset.sum_le_sum fun k (_ : k ∈ Finset.univ) => this k
  rw [← Finset.mul_sum] at this
  linarith

include hh hpad hdim in
/-- What a point gathers, squared. -/
theorem affine_gather_sq (hker : ker ≠ .linear) (hx : ∀ p, InBox o e (pos p)) (p : Fin n)
    (u : Fin (n * windowSize ker dim) → K) :
    let c := compute ker (GridDomain.create o e h pad) pos
    pointSum c (fun i => c.shapeVal i * u i) p ^ 2 +
      2 / 3 * (inertia ker h * ∑ k, pointSum c (fun i => c.shapeGrad i k * u i) p ^ 2) ≤
      pointSum c (fun i => c.shapeVal i * u i ^ 2) p := by
  intro c
  set g := GridDomain.create o e h pad with hg
  have hc := goodCache_of_inBox hdim ker o e h hh pad hpad pos hx
  have hin : StencilInside ker g (pos p) := stencilInside_of_inBox ker o e h hh pad
    (le_trans (by cases ker <;> decide) hpad) (pos p) (hx p)
  let f : Fin 3 → K := fun k => if hk : k.val < dim then fisher ker g.invCellSize (basePos g (pos p) ⟨k.val, hk⟩) else 0
  have hF : ∀ k l, ∑ i with c.pointId i = p, c.shapeGrad i k * c.shapeGrad i l / c.shapeVal i = if k = l then f k else 0 := by
    intro k l
    have h1 := compute_sum_point ker g pos p (fun _ I => I.shapeGrad k * I.shapeGrad l / I.shapeVal)
    exact h1.trans (stencil_fisher hdim hin k l)
  have hinv : g.cellSize * g.invCellSize = 1 := create_inv o e h hh pad
  have key := weighted_bessel (Finset.univ.filter fun i => c.pointId i = p) c.shapeVal u (fun i k => c.shapeGrad i k) f
    (fun _ => 2 / 3 * inertia ker h) (fun i _ => hc.val_nonneg i) (fun i _ => hc.grad_zero i) (hc.sum_val p)
    (fun k => hc.sum_grad p k) hF (fun _ => mul_nonneg (by norm_num) (inertia_nonneg ker h)) (by
      intro k
      by_cases hk : k.val < dim
      · simp only [f, dif_pos hk]
        have h1 := fisher_le ker hker g.invCellSize (basePos g (pos p) ⟨k.val, hk⟩)
        rw [inertia_secondMoment hker h (basePos g (pos p) ⟨k.val, hk⟩)]
        have h2 := mul_le_mul_of_nonneg_left h1 (sq_nonneg h)
        have h3 : h ^ 2 * (3 / 2 * g.invCellSize ^ 2) = 3 / 2 := by
          have : h * g.invCellSize = 1 := hinv
          linear_combination 3 / 2 * (h * g.invCellSize + 1) * this
        linarith
      · simp only [f, dif_neg hk, mul_zero]; exact zero_le_one)
  rw [← Finset.mul_sum, mul_assoc] at key
  exact key

end

section
variable {z : Sz} {K : Type*} [Field K] [LinearOrder K] [IsStrictOrderedRing K] [FloorRing K] {dim : ℕ}
  {SS LS : Type*} {fn : MathFns K} {sv : Solver z K dim SS LS (ForceState K dim)}

/-- Energy of the affine motion of the points of a body: every point counts as a square of the inertia of its shape functions (C04)
that deforms with the velocity gradient `B`. -/
def Spec.affineEnergy (ker : Kernel) (h : K) (B : ℕ → Mat3 K) {n : ℕ} : Body K dim n → K
  | .deformable s => ∑ p, 1 / 2 * s.mass p * (inertia ker h * ∑ j, ∑ k, B p.val j k ^ 2)
  | .rigid _ => 0

/-- Energy of the affine motion of the bodies of a scene. -/
def Spec.totalAE (sv : Solver z K dim SS LS (ForceState K dim)) (st : SimState z K dim SS LS (ForceState K dim)) : K :=
  (sv.couplings.map fun c =>
    if c.skip = false then affineEnergy c.ker (sv.domains c.g).cellSize (st.mech.solvers c.s) (st.world.bodies c.p) else 0).sum

/-- The energy that one body scatters to one node. -/
def affineScatter (sv : Solver z K dim SS LS (ForceState K dim)) (st : SimState z K dim SS LS (ForceState K dim))
    (c : Coupling z) (j : ℕ) (a : Fin dim) : K :=
  match st.world.bodies c.p with
    | .deformable s => scatterAdd (compute c.ker (sv.domains c.g) s.position).nodeHash
        (fun i => (compute c.ker (sv.domains c.g) s.position).shapeVal i *
          s.mass ((compute c.ker (sv.domains c.g) s.position).pointId i) *
          (s.velocity ((compute c.ker (sv.domains c.g) s.position).pointId i) a -
            trunc3 dim (fun r => ∑ k, st.mech.solvers c.s ((compute c.ker (sv.domains c.g) s.position).pointId i).val r k *
              distPhys (sv.domains c.g).cellSize (compute c.ker (sv.domains c.g) s.position) i k) a) ^ 2) j
    | .rigid _ => 0

/-- The kinetic energy of the nodes after the scatter is at most that of the bodies with their affine motion. -/
theorem aflip_grid_ke (hdim : dim = 2 ∨ dim = 3) {cut cut' : K} (hcut : 0 ≤ cut') {pr : AflipParams K} {gravs : List (List (Fin z.G) × ℕ)}
    {st st' : SimState z K dim SS LS (ForceState K dim)} (hr : Regular cut sv st.world)
    (hker : ∀ c ∈ sv.couplings, c.skip = false → c.ker ≠ .linear)
    {grids : Fin z.G → GridArrays K dim} {k : Coupling z → Contribution K dim} {f : Fin z.G → ℕ → Fin dim → K}
    {x3 x4 : Ctx z K dim SS LS (ForceState K dim)} (S : AflipStages fn pr sv gravs st st' grids k f x3 x4) :
    ∑ g, ∑ j ∈ Finset.range (sv.domains g).numCells, (grids g).mass j *
      (1 / 2 * ∑ a, nodeVel cut' ((grids g).mass j) ((grids g).moment j a) ^ 2) ≤
      activeSum sv.couplings (fun c => bodyKE (st.world.bodies c.p)) + totalAE sv st := by
  have down : ∀ c ∈ sv.couplings, c.skip = false →
      ∑ j ∈ Finset.range (sv.domains c.g).numCells, 1 / 2 * ∑ a, affineScatter sv st c j a ≤
      bodyKE (st.world.bodies c.p) + affineEnergy c.ker (sv.domains c.g).cellSize (st.mech.solvers c.s) (st.world.bodies c.p) := by
    intro c hc hs
    obtain ⟨s, e1, hgc, hmp, -⟩ := S.body c hc hs
    obtain ⟨o, e, h, pad, hh, hpad, hd, hx⟩ := hr.box c hc hs
    rw [e1] at hx
    simp only [affineScatter, e1, bodyKE, affineEnergy]
    rw [← Finset.mul_sum, Finset.sum_comm]
    simp only [sum_scatterAdd _ hgc.hash_lt]
    have step : ∀ a : Fin dim, ∑ i, (compute c.ker (sv.domains c.g) s.position).shapeVal i *
          s.mass ((compute c.ker (sv.domains c.g) s.position).pointId i) *
          (s.velocity ((compute c.ker (sv.domains c.g) s.position).pointId i) a -
            trunc3 dim (fun r => ∑ k, st.mech.solvers c.s ((compute c.ker (sv.domains c.g) s.position).pointId i).val r k *
              distPhys (sv.domains c.g).cellSize (compute c.ker (sv.domains c.g) s.position) i k) a) ^ 2 ≤
        ∑ p, s.mass p * (s.velocity p a ^ 2 + inertia c.ker (sv.domains c.g).cellSize *
          ∑ k, st.mech.solvers c.s p.val ⟨a.val, by omega⟩ k ^ 2) := by
      intro a
      have hsz : (sv.domains c.g).cellSize = h := by rw [hd]; rfl
      rw [← Finset.sum_fiberwise Finset.univ (compute c.ker (sv.domains c.g) s.position).pointId]
      refine Finset.sum_le_sum fun p _ => ?_
      have key := affine_scatter hdim o e h hh pad hpad s.position (hker c hc hs) hx p (s.velocity p a)
        (st.mech.solvers c.s p.val ⟨a.val, by omega⟩)
      rw [hsz]
      refine le_trans (le_of_eq ?_) (mul_le_mul_of_nonneg_left key (hmp p).le)
      rw [hd, pointSum, Finset.mul_sum]
      refine Finset.sum_congr rfl fun i hi => ?_
      have hip := (Finset.mem_filter.mp hi).2
      rw [hip]
      have ha : a.val < 3 := by omega
      simp only [trunc3, dif_pos ha]
      ring
    refine le_trans (mul_le_mul_of_nonneg_left (Finset.sum_le_sum fun a _ => step a) (by norm_num)) ?_
    rw [Finset.sum_comm, Finset.mul_sum, ← Finset.sum_add_distrib]
    refine Finset.sum_le_sum fun p _ => ?_
    rw [← Finset.mul_sum, Finset.sum_add_distrib, ← Finset.mul_sum]
    have hrow : ∑ a : Fin dim, ∑ k, st.mech.solvers c.s p.val ⟨a.val, by omega⟩ k ^ 2 ≤
        ∑ j, ∑ k, st.mech.solvers c.s p.val j k ^ 2 := by
      have hinj : Function.Injective (fun a : Fin dim => (⟨a.val, by omega⟩ : Fin 3)) := fun a b hab =>
        Fin.ext (Fin.mk.inj hab)
      rw [← Finset.sum_image (f := fun j => ∑ k, st.mech.solvers c.s p.val j k ^ 2)
        (g := fun a : Fin dim => (⟨a.val, by omega⟩ : Fin 3)) (s := Finset.univ) (fun a _ b _ hab => hinj hab)]
      exact Finset.sum_le_sum_of_subset_of_nonneg (Finset.subset_univ _) fun j _ _ => Finset.sum_nonneg fun k _ => sq_nonneg _
    have := mul_le_mul_of_nonneg_left hrow (mul_nonneg (mul_nonneg (by norm_num : (0 : K) ≤ 1 / 2) (hmp p).le)
      (inertia_nonneg c.ker (sv.domains c.g).cellSize))
    linarith
  have hsum := gridSum_le sv.couplings _ _ down
  rw [activeSum_add] at hsum
  refine le_trans ?_ hsum
  rw [← sum_gridSum sv.couplings (fun g c => ∑ j ∈ Finset.range (sv.domains g).numCells, 1 / 2 * ∑ a, affineScatter sv st c j a)]
  refine Finset.sum_le_sum fun g _ => ?_
  rw [← gridSum_sum]
  refine Finset.sum_le_sum fun j _ => ?_
  have hE : gridSum sv.couplings g (fun c => 1 / 2 * ∑ a, affineScatter sv st c j a) =
      1 / 2 * ∑ a, gridSum sv.couplings g (fun c => affineScatter sv st c j a) := by
    simp only [gridSum_sum, mul_comm (1 / 2 : K), ← gridSum_mul]
  rw [hE, mul_left_comm, Finset.mul_sum]
  refine mul_le_mul_of_nonneg_left (Finset.sum_le_sum fun a _ => ?_) (by norm_num)
  have hcs := gridSum_sq_le sv.couplings g (fun c => (k c).moment j a) (fun c => (k c).mass j)
    (fun c => affineScatter sv st c j a) (by
      intro c hc hs _
      obtain ⟨s, e1, hgc, hmp, hgk, -⟩ := S.body c hc hs
      have hw : ∀ i, 0 ≤ (compute c.ker (sv.domains c.g) s.position).shapeVal i *
          s.mass ((compute c.ker (sv.domains c.g) s.position).pointId i) :=
        fun i => mul_nonneg (hgc.val_nonneg i) (hmp _).le
      rw [S.contribution c hc hs s e1, aflip_p2g_moment hgc, hgk.mass, e1]
      simp only [affineScatter, e1, Body.nodeMass, GridArrays.new, zero_add]
      exact ⟨scatterAdd_nonneg _ _ hw j, scatterAdd_nonneg _ _ (fun i => mul_nonneg (hw i) (sq_nonneg _)) j,
        scatter_sq_le _ _ _ hw j⟩)
  rw [← S.mass, ← S.moment] at hcs
  exact mul_nodeVel_sq_le _ _ _ _ hcut hcs.2.1 hcs.2.2

theorem clampFactor_mem {sqrt : K → K} (hsqrt : ∀ x, 0 ≤ x → 0 ≤ sqrt x) {cfl cell dt : K} (h : 0 ≤ cfl * cell / dt) (v : Fin dim → K) :
    0 ≤ clampFactor sqrt cfl cell dt v ∧ clampFactor sqrt cfl cell dt v ≤ 1 :=
  ⟨le_min zero_le_one (div_nonneg h (add_nonneg (hsqrt _ (Finset.sum_nonneg fun _ _ => sq_nonneg _)) (by positivity))), min_le_left _ _⟩

/-- The total kinetic energy of an ASFLIP step changes by that of the bodies with an active coupling. -/
theorem aflip_totalKE_active (hL : ∀ c, (sv.laws c).OnlyStress) {pr : AflipParams K} {gravs : List (List (Fin z.G) × ℕ)}
    {st st' : SimState z K dim SS LS (ForceState K dim)} {cut : K} (hr : Regular cut sv st.world)
    {grids : Fin z.G → GridArrays K dim} {k : Coupling z → Contribution K dim} {f : Fin z.G → ℕ → Fin dim → K}
    {x3 x4 : Ctx z K dim SS LS (ForceState K dim)} (S : AflipStages fn pr sv gravs st st' grids k f x3 x4) :
    totalKE st.world - totalKE st'.world = activeSum sv.couplings (fun c => bodyKE (st.world.bodies c.p)) -
        activeSum sv.couplings (fun c => bodyKE (st'.world.bodies c.p)) := by
  have hlaw := (law_fold hL st.dt sv.couplings x3 x4 S.law).2
  unfold totalKE
  rw [← Finset.sum_sub_distrib]
  rw [sum_bodies sv.couplings hr.single (fun p => bodyKE (st.world.bodies p) - bodyKE (st'.world.bodies p))]
  swap
  · intro p hp
    rw [S.world', bodyKE_rel (hlaw p)]
    rcases S.other p hp with e | ⟨s, e1, e2⟩
    · rw [e, sub_self]
    · rw [e1, e2]
      exact sub_self _
  have := activeSum_add sv.couplings (fun c => bodyKE (st.world.bodies c.p) - bodyKE (st'.world.bodies c.p))
      (fun c => bodyKE (st'.world.bodies c.p))
  simp only [sub_add_cancel] at this
  linarith

theorem affineEnergy_rel (ker : Kernel) (h : K) (B : ℕ → Mat3 K) {n : ℕ} {b b' : Body K dim n} (hb : Body.Rel SameMotion b b') :
    affineEnergy ker h B b' = affineEnergy ker h B b := by
  cases b <;> cases b' <;> simp only [Body.Rel] at hb
  · obtain ⟨h1, -⟩ := hb
    simp only [affineEnergy, h1]
  · subst hb; rfl

theorem sum_rows (hdim : dim = 2 ∨ dim = 3) (F : Fin dim → K) :
    ∑ j : Fin 3, (if h : j.val < dim then F ⟨j.val, h⟩ else 0) = ∑ a, F a := by
  rcases hdim with rfl | rfl
  · simp [Fin.sum_univ_three, Fin.sum_univ_two]
  · simp [Fin.sum_univ_three]

/-- **C139** (partial). An ASFLIP step with `alpha = 0` without forces, of stress-free bodies with quadratic or cubic shape functions: the new
kinetic energy and two thirds of the new affine energy are together at most the old kinetic and affine energy. -/
theorem aflip_step_energy_partial (hsqrt : ∀ x, 0 ≤ x → 0 ≤ fn.sqrt x) (pr : AflipParams K) (halpha : pr.alpha = 0) (hcut : 0 ≤ pr.cutoff)
    (hdim : dim = 2 ∨ dim = 3) (hforces : sv.forces = []) (hL : ∀ c, (sv.laws c).OnlyStress)
    (hker : ∀ c ∈ sv.couplings, c.skip = false → c.ker ≠ .linear) (hidx : ∀ c ∈ sv.couplings, c.skip = false → c.s.val = c.p.val)
    {st st' : SimState z K dim SS LS (ForceState K dim)} (hlim : ∀ c ∈ sv.couplings, c.skip = false → 0 ≤ pr.cfl * (sv.domains c.g).cellSize / st.dt)
    (h : aflipCall fn pr sv st = .ok st') (hr : Regular 0 sv st.world)
    (hσ : ∀ c ∈ sv.couplings, c.skip = false → ∀ s, st.world.bodies c.p = .deformable s → ∀ q, s.stress q = 0) :
    totalKE st'.world + 2 / 3 * totalAE sv st' ≤ totalKE st.world + totalAE sv st := by
  obtain ⟨grids, k, f, x3, x4, S⟩ := aflip_stages pr [] hdim hforces h hr
  have hlaw := (law_fold hL st.dt sv.couplings x3 x4 S.law).2
  have hf := S.stressfree hσ
  have hsol4 : x4.mech.solvers = x3.mech.solvers := by
    refine foldE_rel (R := fun (x x' : Ctx z K dim SS LS (ForceState K dim)) => x'.mech.solvers = x.mech.solvers)
      (fun _ => rfl) (fun _ _ _ h1 h2 => h2.trans h1) sv.couplings x3 x4 (fun c _ y y' hy => ?_) S.law
    cases hs : c.skip with
    | true => rw [lawCoupling_skip hs hy]
    | false =>
      obtain ⟨s, r, -, -, rfl⟩ := lawCoupling_ok hs hy
      rfl
  let u : Fin z.G → ℕ → Fin dim → K := fun g j a => nodeVel pr.cutoff ((grids g).mass j) ((grids g).moment j a)
  have hNt : ∀ c ∈ sv.couplings, c.skip = false → (grids c.g).momentNt = (grids c.g).moment := by
    intro c hc hs
    rw [S.momentNt c hc hs]
    funext j a
    have : (grids c.g).force j a = 0 := by rw [S.force, hf]; simp [gridAccel]
    rw [this, zero_mul, add_zero]
  have up : ∀ c ∈ sv.couplings, c.skip = false → bodyKE (st'.world.bodies c.p) +
      2 / 3 * affineEnergy c.ker (sv.domains c.g).cellSize (st'.mech.solvers c.s) (st'.world.bodies c.p) ≤
      ∑ j ∈ Finset.range (sv.domains c.g).numCells,
        (st.world.bodies c.p).nodeMass c.ker (sv.domains c.g) j * (1 / 2 * ∑ a, u c.g j a ^ 2) := by
    intro c hc hs
    obtain ⟨s, e1, hgc, hmp, -, e2⟩ := S.body c hc hs
    obtain ⟨o, e, hh, pad, hhp, hpad, hd, hx⟩ := hr.box c hc hs
    rw [e1] at hx
    have hsz : (sv.domains c.g).cellSize = hh := by rw [hd]; rfl
    have hB : ∀ q : Fin (z.np c.p), st'.mech.solvers c.s q.val =
        (aflipGather pr.cutoff (compute c.ker (sv.domains c.g) s.position) (grids c.g)).pBp q := fun q => by
      rw [S.mech', hsol4]
      exact S.stored c hc hs s e1 c.s (hidx c hc hs) q
    rw [S.world', bodyKE_rel (hlaw c.p), affineEnergy_rel _ _ _ (hlaw c.p), e2, e1]
    simp only [bodyKE, affineEnergy, Body.nodeMass]
    have hmass : ∀ p, (aflipG2pMls fn.sqrt pr (sv.domains c.g).cellSize st.dt (compute c.ker (sv.domains c.g) s.position)
        (grids c.g) (resetBody s)).1.mass p = s.mass p := fun _ => rfl
    have hpt : ∀ p, ∑ a, (aflipG2pMls fn.sqrt pr (sv.domains c.g).cellSize st.dt (compute c.ker (sv.domains c.g) s.position)
          (grids c.g) (resetBody s)).1.velocity p a ^ 2 +
        2 / 3 * (inertia c.ker (sv.domains c.g).cellSize * ∑ j, ∑ l, st'.mech.solvers c.s p.val j l ^ 2) ≤
        pointSum (compute c.ker (sv.domains c.g) s.position) (fun i => (compute c.ker (sv.domains c.g) s.position).shapeVal i *
          ∑ a, u c.g ((compute c.ker (sv.domains c.g) s.position).nodeHash i) a ^ 2) p := by
      intro p
      have hg : ∀ a, pointSum (compute c.ker (sv.domains c.g) s.position) (fun i =>
            (compute c.ker (sv.domains c.g) s.position).shapeVal i * u c.g ((compute c.ker (sv.domains c.g) s.position).nodeHash i) a) p ^ 2 +
          2 / 3 * (inertia c.ker (sv.domains c.g).cellSize * ∑ l, pointSum (compute c.ker (sv.domains c.g) s.position) (fun i =>
            (compute c.ker (sv.domains c.g) s.position).shapeGrad i l * u c.g ((compute c.ker (sv.domains c.g) s.position).nodeHash i) a) p ^ 2) ≤
          pointSum (compute c.ker (sv.domains c.g) s.position) (fun i =>
            (compute c.ker (sv.domains c.g) s.position).shapeVal i *
              u c.g ((compute c.ker (sv.domains c.g) s.position).nodeHash i) a ^ 2) p := by
        intro a
        rw [hsz, hd]
        exact affine_gather_sq hdim o e hh hhp pad hpad s.position (hker c hc hs) hx p _
      have hsum := Finset.sum_le_sum fun a (_ : a ∈ Finset.univ) => hg a
      rw [Finset.sum_add_distrib, ← Finset.mul_sum, ← Finset.mul_sum] at hsum
      have hr1 : ∑ a, pointSum (compute c.ker (sv.domains c.g) s.position) (fun i =>
            (compute c.ker (sv.domains c.g) s.position).shapeVal i *
              u c.g ((compute c.ker (sv.domains c.g) s.position).nodeHash i) a ^ 2) p =
          pointSum (compute c.ker (sv.domains c.g) s.position) (fun i => (compute c.ker (sv.domains c.g) s.position).shapeVal i *
          ∑ a, u c.g ((compute c.ker (sv.domains c.g) s.position).nodeHash i) a ^ 2) p := by
        simp only [pointSum]
        rw [Finset.sum_comm]
        exact Finset.sum_congr rfl fun i _ => by rw [Finset.mul_sum]
      rw [hr1] at hsum
      refine le_trans (add_le_add ?_ (le_of_eq ?_)) hsum
      · refine Finset.sum_le_sum fun a _ => ?_
        rw [aflip_velocity]
        obtain ⟨c0, c1⟩ := clampFactor_mem hsqrt (hlim c hc hs)
          (aflipFree pr (compute c.ker (sv.domains c.g) s.position) (grids c.g) (resetBody s) p)
        have hfree : aflipFree pr (compute c.ker (sv.domains c.g) s.position) (grids c.g) (resetBody s) p a =
            pointSum (compute c.ker (sv.domains c.g) s.position) (fun i =>
            (compute c.ker (sv.domains c.g) s.position).shapeVal i * u c.g ((compute c.ker (sv.domains c.g) s.position).nodeHash i) a) p := by
          have h0 : dynAlpha pr (compute c.ker (sv.domains c.g) s.position) (grids c.g) (resetBody s) p = 0 := by
            unfold dynAlpha; rw [halpha]; simp
          simp only [aflipFree, h0, zero_mul, add_zero, aflipGather, hNt c hc hs, u]
        rw [hfree, mul_pow]
        exact mul_le_of_le_one_right (sq_nonneg _) (pow_le_one₀ c0 c1)
      · congr 2
        rw [← sum_rows hdim]
        refine Finset.sum_congr rfl fun j _ => ?_
        rw [hB p]
        by_cases hj : j.val < dim
        · rw [dif_pos hj]
          refine Finset.sum_congr rfl fun l _ => ?_
          simp only [aflipGather, pad3_lt _ j hj, hNt c hc hs]
          have : pointSum (compute c.ker (sv.domains c.g) s.position) (fun i =>
              -(nodeVel pr.cutoff ((grids c.g).mass ((compute c.ker (sv.domains c.g) s.position).nodeHash i))
                ((grids c.g).moment ((compute c.ker (sv.domains c.g) s.position).nodeHash i) ⟨j.val, hj⟩) *
                (compute c.ker (sv.domains c.g) s.position).shapeGrad i l)) p =
              -pointSum (compute c.ker (sv.domains c.g) s.position) (fun i =>
                (compute c.ker (sv.domains c.g) s.position).shapeGrad i l *
                  u c.g ((compute c.ker (sv.domains c.g) s.position).nodeHash i) ⟨j.val, hj⟩) p := by
            simp only [pointSum, ← Finset.sum_neg_distrib]
            exact Finset.sum_congr rfl fun i _ => by rw [mul_comm]
          rw [this, neg_sq]
        · rw [dif_neg hj]
          refine Finset.sum_eq_zero fun l _ => ?_
          simp only [aflipGather, pad3_ge _ j hj, zero_mul, neg_zero, pointSum, Finset.sum_const_zero]
          ring
    have hmi := sum_mass_interp hgc s.mass (fun j => ∑ a, u c.g j a ^ 2)
    have hall := Finset.sum_le_sum fun p (_ : p ∈ Finset.univ) => mul_le_mul_of_nonneg_left (hpt p) (hmp p).le
    rw [hmi] at hall
    have hhalf := mul_le_mul_of_nonneg_left hall (by norm_num : (0 : K) ≤ 1 / 2)
    refine le_trans (le_of_eq ?_) (hhalf.trans (le_of_eq ?_))
    · rw [Finset.mul_sum, Finset.mul_sum, ← Finset.sum_add_distrib]
      refine Finset.sum_congr rfl fun p _ => ?_
      rw [hmass]
      ring
    · rw [Finset.mul_sum]
      exact Finset.sum_congr rfl fun j _ => by ring
  have hsum := gridSum_le sv.couplings _ _ up
  rw [activeSum_add, ← activeSum_mul] at hsum
  have hG := aflip_grid_ke hdim hcut hr hker S
  have hA := aflip_totalKE_active hL hr S
  have hM : activeSum sv.couplings (fun c => ∑ j ∈ Finset.range (sv.domains c.g).numCells,
        (st.world.bodies c.p).nodeMass c.ker (sv.domains c.g) j * (1 / 2 * ∑ a, u c.g j a ^ 2)) =
      ∑ g, ∑ j ∈ Finset.range (sv.domains g).numCells, (grids g).mass j *
      (1 / 2 * ∑ a, nodeVel pr.cutoff ((grids g).mass j) ((grids g).moment j a) ^ 2) := by
    rw [← sum_gridSum sv.couplings (fun g c => ∑ j ∈ Finset.range (sv.domains g).numCells,
        (st.world.bodies c.p).nodeMass c.ker (sv.domains c.g) j * (1 / 2 * ∑ a, u g j a ^ 2))]
    refine Finset.sum_congr rfl fun g _ => ?_
    rw [← gridSum_sum]
    refine Finset.sum_congr rfl fun j _ => ?_
    have hmm : gridSum sv.couplings g (fun c => (st.world.bodies c.p).nodeMass c.ker (sv.domains c.g) j) = (grids g).mass j := by
      rw [S.mass g j]
      refine gridSum_congr _ _ _ _ fun c hc hs _ => ?_
      obtain ⟨s, e1, -, -, hgk, -⟩ := S.body c hc hs
      rw [hgk.mass]
    rw [← gridSum_mul, hmm]
  have hT : totalAE sv st' = activeSum sv.couplings fun c =>
      affineEnergy c.ker (sv.domains c.g).cellSize (st'.mech.solvers c.s) (st'.world.bodies c.p) := rfl
  rw [hT]
  linarith

/-- **C139**, a step from rest of the affine motion (as after `create`): the kinetic energy does not increase. -/
theorem aflip_first_step_energy (hsqrt : ∀ x, 0 ≤ x → 0 ≤ fn.sqrt x) (pr : AflipParams K) (halpha : pr.alpha = 0) (hcut : 0 ≤ pr.cutoff)
    (hdim : dim = 2 ∨ dim = 3) (hforces : sv.forces = []) (hL : ∀ c, (sv.laws c).OnlyStress)
    (hker : ∀ c ∈ sv.couplings, c.skip = false → c.ker ≠ .linear) (hidx : ∀ c ∈ sv.couplings, c.skip = false → c.s.val = c.p.val)
    {st st' : SimState z K dim SS LS (ForceState K dim)} (hlim : ∀ c ∈ sv.couplings, c.skip = false → 0 ≤ pr.cfl * (sv.domains c.g).cellSize / st.dt)
    (h : aflipCall fn pr sv st = .ok st') (hr : Regular 0 sv st.world)
    (hσ : ∀ c ∈ sv.couplings, c.skip = false → ∀ s, st.world.bodies c.p = .deformable s → ∀ q, s.stress q = 0)
    (hB : ∀ i q, st.mech.solvers i q = 0) : totalKE st'.world + 2 / 3 * totalAE sv st' ≤ totalKE st.world := by
  have h1 := aflip_step_energy_partial hsqrt pr halpha hcut hdim hforces hL hker hidx hlim h hr hσ
  have h0 : totalAE sv st = 0 := by
    unfold totalAE
    refine List.sum_eq_zero fun x hx => ?_
    obtain ⟨c, -, rfl⟩ := List.mem_map.mp hx
    split_ifs
    · unfold affineEnergy
      split
      · simp [hB]
      · rfl
    · rfl
  rw [h0, add_zero] at h1
  exact h1

end

/-! ### Two points that separate -/

/-- Two points of mass 1 on one line that move apart; no stiffness, no forces. -/
def exApart : SimState exSz ℚ 2 Unit (LawState ℚ) (ForceState ℚ 2) :=
  { exState with
    dt := 1 / 16
    world := { exState.world with bodies := fun _ => .deformable (MPState.create
      { position := ![![3 / 8, 1 / 2], ![13 / 16, 1 / 2]], velocity := some ![![-1, 0], ![1, 0]], mass := some ![1, 1]
        volume := some ![1 / 4, 1 / 4], stress := some fun _ => 0 }) } }

def exApartSolver : Solver exSz ℚ 2 Unit (LawState ℚ) (ForceState ℚ 2) :=
  { exSolver .quadratic false with forces := [], laws := fun _ => elasticLaw 0 (1 / 4) false }

def exApartParams : AflipParams ℚ := { exAflipParams with alpha := 0, cfl := 10 ^ 6 }

/-- Points inside the box, positive masses, no stress. -/
def exApartB (w : World exSz ℚ 2 Unit) : Bool :=
  match w.bodies (0 : Fin 1) with
  | .rigid _ => false
  | .deformable s =>
    (List.finRange 2).all (fun q => (List.finRange 2).all fun d => 0 ≤ s.position q d ∧ s.position q d ≤ 1) &&
    (List.finRange 2).all (fun q => 0 < s.mass q) &&
    (List.finRange 2).all (fun q => (List.finRange 3).all fun i => (List.finRange 3).all fun j => s.stress q i j = 0)

theorem exApartB_regular {w : World exSz ℚ 2 Unit} (h : exApartB w = true) : Regular 0 exApartSolver w ∧
    ∀ c ∈ exApartSolver.couplings, c.skip = false → ∀ s, w.bodies c.p = .deformable s → ∀ q, s.stress q = 0 := by
  unfold exApartB at h
  cases hb : w.bodies (0 : Fin 1) with
  | rigid r => rw [hb] at h; simp at h
  | deformable s =>
    rw [hb] at h
    simp only [Bool.and_eq_true, List.all_eq_true, List.mem_finRange, decide_eq_true_eq, true_implies] at h
    obtain ⟨⟨h1, h2⟩, h3⟩ := h
    refine ⟨⟨by simp [exApartSolver, exSolver], ?_, ?_, fun _ _ h0 => h0⟩, ?_⟩
    · intro c hc _
      obtain rfl : c = exCoupling .quadratic := by simpa [exApartSolver, exSolver] using hc
      refine ⟨fun _ => 0, fun _ => 1, 1 / 2, 2, by norm_num, by norm_num, rfl, ?_⟩
      change ∀ q, InBox _ _ ((w.bodies (0 : Fin 1)).position q)
      rw [hb]
      exact fun q d => h1 q d
    · intro c hc _ t ht
      obtain rfl : c = exCoupling .quadratic := by simpa [exApartSolver, exSolver] using hc
      have ht : w.bodies (0 : Fin 1) = .deformable t := ht
      rw [hb] at ht
      cases ht
      exact h2
    · intro c hc _ t ht q
      obtain rfl : c = exCoupling .quadratic := by simpa [exApartSolver, exSolver] using hc
      have ht : w.bodies (0 : Fin 1) = .deformable t := ht
      rw [hb] at ht
      cases ht
      exact Matrix.ext fun i j => h3 q i j

set_option maxRecDepth 100000 in
theorem exApart_ok : (aflipCall sqFns exApartParams exApartSolver exApart).isOk = true ∧ exApartB exApart.world = true := by
  decide +kernel

set_option maxRecDepth 100000 in
theorem exApart_next : checkOk (aflipCall sqFns exApartParams exApartSolver exApart) (fun s => exApartB s.world &&
    (aflipCall sqFns exApartParams exApartSolver s).isOk && decide (s.dt = 1 / 16) && decide (0 < totalAE exApartSolver s)) = true := by
  decide +kernel

set_option maxRecDepth 100000 in
theorem exApart_energy : checkOk (aflipCall sqFns exApartParams exApartSolver exApart) (fun s =>
    checkOk (aflipCall sqFns exApartParams exApartSolver s) fun s' =>
      decide (totalKE s.world < totalKE s'.world ∧
        totalKE s.world + totalAE exApartSolver s < totalKE s'.world + totalAE exApartSolver s')) = true := by
  decide +kernel

/-- The step theorem holds for the first and the second step of the separating points, the second with an affine motion. -/
example : ∃ st1 st2, aflipCall sqFns exApartParams exApartSolver exApart = .ok st1 ∧
    aflipCall sqFns exApartParams exApartSolver st1 = .ok st2 ∧ 0 < totalAE exApartSolver st1 ∧
    totalKE st1.world + 2 / 3 * totalAE exApartSolver st1 ≤ totalKE exApart.world ∧
    totalKE st2.world + 2 / 3 * totalAE exApartSolver st2 ≤ totalKE st1.world + totalAE exApartSolver st1 := by
  obtain ⟨h1, hb1⟩ := exApart_ok
  obtain ⟨st1, h1⟩ := isOk_ok h1
  have hn := checkOk_ok exApart_next st1 h1
  simp only [Bool.and_eq_true, decide_eq_true_eq] at hn
  obtain ⟨⟨⟨hb2, h2⟩, hdt⟩, hAE⟩ := hn
  obtain ⟨st2, h2⟩ := isOk_ok h2
  have hker : ∀ c ∈ exApartSolver.couplings, c.skip = false → c.ker ≠ .linear := by
    intro c hc _
    obtain rfl : c = exCoupling .quadratic := by simpa [exApartSolver, exSolver] using hc
    simp [exCoupling]
  have hidx : ∀ c ∈ exApartSolver.couplings, c.skip = false → c.s.val = c.p.val := by
    intro c hc _
    obtain rfl : c = exCoupling .quadratic := by simpa [exApartSolver, exSolver] using hc
    rfl
  have hlim : ∀ dt : ℚ, dt = 1 / 16 → ∀ c ∈ exApartSolver.couplings, c.skip = false →
      0 ≤ exApartParams.cfl * (exApartSolver.domains c.g).cellSize / dt := by
    rintro _ rfl c _ _
    norm_num [exApartParams, exApartSolver, exSolver, GridDomain.create]
  exact ⟨st1, st2, h1, h2, hAE,
    aflip_first_step_energy (fun x hx => (ratSqrt_lowerRoot x hx).1) exApartParams rfl (by norm_num [exApartParams, exAflipParams])
      (.inl rfl) rfl (fun _ => LibLaw.onlyStress (.elastic 0 (1 / 4) false)) hker hidx (hlim _ rfl) h1 (exApartB_regular hb1).1
      (exApartB_regular hb1).2 (fun _ _ => rfl),
    aflip_step_energy_partial (fun x hx => (ratSqrt_lowerRoot x hx).1) exApartParams rfl (by norm_num [exApartParams, exAflipParams])
      (.inl rfl) rfl (fun _ => LibLaw.onlyStress (.elastic 0 (1 / 4) false)) hker hidx (hlim _ hdt) h2 (exApartB_regular hb2).1
      (exApartB_regular hb2).2⟩

/-- **C139**, refuted. In the second free step of two points that move apart the kinetic energy and its sum with the affine energy grow, without forces, stress or
speed limit and inside the box. -/
theorem affine_energy_grows : ∃ st1 st2, aflipCall sqFns exApartParams exApartSolver exApart = .ok st1 ∧
    aflipCall sqFns exApartParams exApartSolver st1 = .ok st2 ∧ Regular 0 exApartSolver st1.world ∧
    (∀ c ∈ exApartSolver.couplings, c.skip = false → ∀ s, st1.world.bodies c.p = .deformable s → ∀ q, s.stress q = 0) ∧
    totalKE st1.world < totalKE st2.world ∧
    totalKE st1.world + totalAE exApartSolver st1 < totalKE st2.world + totalAE exApartSolver st2 := by
  obtain ⟨st1, h1⟩ := isOk_ok exApart_ok.1
  have hn := checkOk_ok exApart_next st1 h1
  simp only [Bool.and_eq_true, decide_eq_true_eq] at hn
  obtain ⟨⟨⟨hb2, h2⟩, -⟩, -⟩ := hn
  obtain ⟨st2, h2⟩ := isOk_ok h2
  have he := checkOk_ok (checkOk_ok exApart_energy st1 h1) st2 h2
  exact ⟨st1, st2, h1, h2, (exApartB_regular hb2).1, (exApartB_regular hb2).2, of_decide_eq_true he⟩

end Hydrax
