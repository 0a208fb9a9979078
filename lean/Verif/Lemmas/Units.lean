import Verif.Lemmas.LatScene
import Verif.Lemmas.SceneGrid
import Verif.Model.Forces
import Verif.Model.LawTable

/-!
# Change of units: the transfers of one body

Every number of a scene is multiplied by the factor its dimension asks for; the transfers commute with that.
-/

namespace Hydrax

section
variable {K : Type*} [Field K] [LinearOrder K]

/-- New units of length, time and mass: the factors by which lengths, times and masses are multiplied. -/
structure Spec.UnitSystem (K : Type*) [Field K] [LinearOrder K] where
  len : K
  time : K
  mass : K
  len_pos : 0 < len
  time_pos : 0 < time
  mass_pos : 0 < mass

namespace Spec.UnitSystem
variable (u : Spec.UnitSystem K) {dim n w : ℕ}

/-- Factor of a velocity. -/
def vel : K := u.len / u.time

/-- Factor of an acceleration. -/
def accel : K := u.len / u.time ^ 2

/-- Factor of a force. -/
def force : K := u.mass * u.len / u.time ^ 2

/-- Factor of a volume (of an area in the plane). -/
def vol (dim : ℕ) : K := u.len ^ dim

/-- Factor of a density. -/
def density (dim : ℕ) : K := u.mass / u.len ^ dim

/-- Factor of a stress: force per area (per length in the plane). -/
def stress (dim : ℕ) : K := u.mass * u.len ^ 2 / (u.time ^ 2 * u.len ^ dim)

/-- A deformable body in the new units. -/
def mp (s : MPState K dim n) : MPState K dim n :=
  { position := fun p a => u.len * s.position p a
    velocity := fun p a => u.vel * s.velocity p a
    force := fun p a => u.force * s.force p a
    mass := fun p => u.mass * s.mass p
    volume := fun p => u.vol dim * s.volume p
    volume0 := fun p => u.vol dim * s.volume0 p
    L := fun p => (1 / u.time) • s.L p
    stress := fun p => u.stress dim • s.stress p
    F := s.F
    FStore := s.FStore
    volScalar := s.volScalar }

/-- A body in the new units. -/
def body : Body K dim n → Body K dim n
  | .deformable s => .deformable (u.mp s)
  | .rigid r => .rigid
      { position := fun p a => u.len * r.position p a
        velocity := fun p a => u.vel * r.velocity p a
        mass := fun p => u.mass * r.mass p
        normal := r.normal }

/-- A grid in the new units. -/
def domain (g : GridDomain K dim) : GridDomain K dim :=
  { origin := fun a => u.len * g.origin a
    stop := fun a => u.len * g.stop a
    cellSize := u.len * g.cellSize
    gridSize := g.gridSize
    padding := g.padding
    invCellSize := g.invCellSize / u.len }

/-- An interaction list in the new units: weights are pure numbers, their gradients are per length. -/
def inter (c : InteractionCache K n w) : InteractionCache K n w :=
  { c with shapeGrad := fun i k => 1 / u.len * c.shapeGrad i k }

/-- Nodal arrays in the new units. -/
def grid (g : GridArrays K dim) : GridArrays K dim :=
  { mass := fun j => u.mass * g.mass j
    moment := fun j a => u.mass * u.vel * g.moment j a
    momentNt := fun j a => u.mass * u.vel * g.momentNt j a
    force := fun j a => u.force * g.force j a }

/-- Distances, normals, wall velocities and friction coefficients in the new units. -/
def geom {ι : Type*} (g : Geom K dim ι) : Geom K dim ι :=
  { dists := fun i => u.len * g.dists i
    normals := g.normals
    wallVels := fun i a => u.vel * g.wallVels i a
    friction := g.friction }

end Spec.UnitSystem

open Spec

namespace UnitChange
variable (u : Spec.UnitSystem K) {dim n w : ℕ}

theorem body_position (b : Body K dim n) : (u.body b).position = fun p a => u.len * b.position p a := by
  cases b <;> rfl

theorem dbasis1_units (ker : Kernel) (invH x : K) : dbasis1 (invH / u.len) ker x = 1 / u.len * dbasis1 invH ker x := by
  cases ker <;> simp only [dbasis1, linearDBasis, quadraticDBasis, cubicDBasis]
  all_goals split_ifs <;> ring

omit [LinearOrder K] in
theorem tensorGrad_units (c : K) (dim : ℕ) (b db : Fin dim → K) :
    tensorGrad dim b (fun d => c * db d) = fun a => c * tensorGrad dim b db a := by
  rcases dim with _ | _ | _ | _ | k
  · rfl
  · rfl
  · funext a; fin_cases a <;> simp [tensorGrad] <;> ring
  · funext a; fin_cases a <;> simp [tensorGrad] <;> ring
  · rfl

omit [LinearOrder K] in
theorem pad3_units (c : K) (v : Fin dim → K) : pad3 (fun a => c * v a) = fun k => c * pad3 v k := by
  funext k
  unfold pad3
  split_ifs <;> simp

theorem basePos_units [FloorRing K] (g : GridDomain K dim) (x : Fin dim → K) :
    basePos (u.domain g) (fun a => u.len * x a) = basePos g x := by
  funext d
  have := u.len_pos.ne'
  simp only [basePos, Spec.UnitSystem.domain]
  field_simp

theorem compute_units [FloorRing K] (ker : Kernel) (g : GridDomain K dim) (pos : Fin n → Fin dim → K) :
    compute ker (u.domain g) (fun p a => u.len * pos p a) = u.inter (compute ker g pos) := by
  have hi : ∀ p s, nodeIdx ker (u.domain g) (fun a => u.len * pos p a) s = nodeIdx ker g (pos p) s := by
    intro p s; unfold nodeIdx; rw [basePos_units]
  have hs : ∀ p s, computeSingle ker (u.domain g) (fun a => u.len * pos p a) s =
      { computeSingle ker g (pos p) s with shapeGrad := fun k => 1 / u.len * (computeSingle ker g (pos p) s).shapeGrad k } := by
    intro p s
    unfold computeSingle
    simp only [hi, basePos_units]
    simp only [Interaction.mk.injEq]
    refine ⟨rfl, rfl, ?_, trivial⟩
    simp only [Spec.UnitSystem.domain, shapeFunction, dbasis1_units, tensorGrad_units, pad3_units]
    funext k
    split_ifs <;> simp
  unfold compute Spec.UnitSystem.inter
  simp only [hs]

omit [LinearOrder K] in
theorem scatterAdd_units {N : ℕ} (c : K) (idx : Fin N → ℕ) (vals : Fin N → K) (j : ℕ) :
    scatterAdd idx (fun i => c * vals i) j = c * scatterAdd idx vals j := by
  unfold scatterAdd
  rw [Finset.mul_sum]
  refine Finset.sum_congr rfl fun i _ => ?_
  split_ifs <;> simp

omit [LinearOrder K] in
theorem pointSum_units (c : InteractionCache K n w) (k : K) (vals : Fin (n * w) → K) (p : Fin n) :
    pointSum c (fun i => k * vals i) p = k * pointSum c vals p := by
  unfold pointSum
  rw [Finset.mul_sum]

omit [LinearOrder K] in
theorem internTerm_units (a b : K) (σ : Mat3 K) (grad : Fin 3 → K) (i : Fin dim) :
    internTerm dim (a • σ) (fun k => b * grad k) i = a * b * internTerm dim σ grad i := by
  unfold internTerm trunc3
  split_ifs
  · rw [Finset.mul_sum]
    refine Finset.sum_congr rfl fun k _ => ?_
    simp only [Matrix.smul_apply, smul_eq_mul]; ring
  · simp

theorem force_eq (dim : ℕ) : u.vol dim * (u.stress dim * (1 / u.len)) = u.force := by
  have h1 := u.len_pos.ne'
  have h2 := u.time_pos.ne'
  unfold Spec.UnitSystem.vol Spec.UnitSystem.stress Spec.UnitSystem.force
  field_simp

theorem p2g_units (c : InteractionCache K n w) (s : MPState K dim n) (g : GridArrays K dim) :
    p2gBody (u.inter c) (u.mp s) (u.grid g) = u.grid (p2gBody c s g) := by
  unfold p2gBody
  simp only [Spec.UnitSystem.grid, Spec.UnitSystem.inter, Spec.UnitSystem.mp, GridArrays.mk.injEq, true_and]
  refine ⟨?_, ?_, ?_⟩
  · funext j
    rw [mul_add, ← scatterAdd_units]
    congr 2; funext i; ring
  · funext j a
    rw [mul_add, ← scatterAdd_units]
    congr 2; funext i; ring
  · funext j a
    rw [zero_add, zero_add, ← scatterAdd_units]
    congr 1; funext i
    rw [internTerm_units, ← force_eq u dim]
    ring

theorem integrate_units (dt : K) (g : GridArrays K dim) :
    integrateBody (u.time * dt) (u.grid g) = u.grid (integrateBody dt g) := by
  have h2 := u.time_pos.ne'
  unfold integrateBody
  simp only [Spec.UnitSystem.grid, GridArrays.mk.injEq, true_and, and_true]
  funext j a
  simp only [Spec.UnitSystem.force, Spec.UnitSystem.vel]
  field_simp

/-- A nodal mass that is not negative and that the mass cutoffs `1e-12` (usl.py:600) and `1e-14` (sdf_collider.py:166) treat alike
in both systems of units. -/
structure Weighed (m : K) : Prop where
  nonneg : 0 ≤ m
  cut : 1 / 10 ^ 12 < u.mass * m ↔ 1 / 10 ^ 12 < m
  cut14 : 1 / 10 ^ 14 < u.mass * m ↔ 1 / 10 ^ 14 < m

variable {u}
/-- No mass at all, or more than the cutoff in both systems of units. -/
theorem Weighed.of_gap [IsStrictOrderedRing K] {m : K} (h : m = 0 ∨ (1 / 10 ^ 12 < m ∧ 1 / 10 ^ 12 < u.mass * m)) : Weighed u m := by
  have h0 : (1 : K) / 10 ^ 14 < 1 / 10 ^ 12 := by norm_num
  have h3 : (0 : K) < 1 / 10 ^ 12 := by positivity
  rcases h with rfl | ⟨h1, h2⟩
  · exact ⟨le_rfl, by simp, by simp⟩
  · exact ⟨(h3.trans h1).le, ⟨fun _ => h1, fun _ => h2⟩, ⟨fun _ => h0.trans h1, fun _ => h0.trans h2⟩⟩

/-- With the same unit of mass only the sign matters. -/
theorem Weighed.of_same {m : K} (hu : u.mass = 1) (h : 0 ≤ m) : Weighed u m :=
  ⟨h, by rw [hu, one_mul], by rw [hu, one_mul]⟩

theorem nodeVel_units [IsStrictOrderedRing K] {m : K} (h : Weighed u m) (k mom : K) :
    nodeVel uslCutoff (u.mass * m) (u.mass * k * mom) = k * nodeVel uslCutoff m mom := by
  have h1 := u.mass_pos.ne'
  have hcut : uslCutoff < u.mass * m ↔ uslCutoff < m := h.cut
  unfold nodeVel
  simp only [gt_iff_lt, hcut]
  split_ifs with hc
  · have hm : m ≠ 0 := (lt_trans (show (0 : K) < uslCutoff by unfold uslCutoff; positivity) hc).ne'
    field_simp
  · simp
variable (u)

theorem ghostBlend_units (c : InteractionCache K n w) (k : K) (gh : Option (Fin n → Fin dim → K))
    (v : Fin (n * w) → Fin dim → K) :
    ghostBlend (u.inter c) (gh.map fun f p a => k * f p a) (fun i a => k * v i a) = fun i a => k * ghostBlend c gh v i a := by
  cases gh with
  | none => rfl
  | some f =>
    funext i a
    simp only [ghostBlend, Option.map, Spec.UnitSystem.inter]
    ring

omit [LinearOrder K] in
theorem planeL_units (c : K) (X : Fin 3 → Fin 3 → K) :
    (if dim = 2 then set22 (fun j k => c * X j k) 0 else fun j k => c * X j k : Mat3 K) =
      c • (if dim = 2 then set22 X 0 else X : Mat3 K) := by
  by_cases hd : dim = 2
  · refine (if_pos hd).trans ?_
    ext j k
    rw [Matrix.smul_apply, show (if dim = 2 then set22 X 0 else X : Mat3 K) = set22 X 0 from if_pos hd]
    by_cases hjk : j = 2 ∧ k = 2
    · simp [set22, hjk]
    · simp [set22, hjk]
  · refine (if_neg hd).trans ?_
    rw [show (if dim = 2 then set22 X 0 else X : Mat3 K) = X from if_neg hd]
    rfl

theorem g2p_units [IsStrictOrderedRing K] (alpha dt : K) (c : InteractionCache K n w) (gh : Option (Fin n → Fin dim → K))
    (g : GridArrays K dim) (hg : ∀ j, Weighed u (g.mass j)) (s : MPState K dim n) :
    g2pBody alpha (u.time * dt) (u.inter c) (gh.map fun f p a => u.vel * f p a) (u.grid g) (u.mp s) =
      u.mp (g2pBody alpha dt c gh g s) := by
  have ht := u.time_pos.ne'
  have hl := u.len_pos.ne'
  have hv : u.vel * u.time = u.len := by unfold Spec.UnitSystem.vel; field_simp
  have hv' : u.vel * (1 / u.len) = 1 / u.time := by unfold Spec.UnitSystem.vel; field_simp
  unfold g2pBody
  have e1 : (fun (i : Fin (n * w)) (a : Fin dim) => nodeVel uslCutoff ((u.grid g).mass ((u.inter c).nodeHash i))
      ((u.grid g).moment ((u.inter c).nodeHash i) a)) =
      fun i a => u.vel * nodeVel uslCutoff (g.mass (c.nodeHash i)) (g.moment (c.nodeHash i) a) := by
    funext i a; exact nodeVel_units (hg _) _ _
  have e2 : (fun (i : Fin (n * w)) (a : Fin dim) => nodeVel uslCutoff ((u.grid g).mass ((u.inter c).nodeHash i))
      ((u.grid g).momentNt ((u.inter c).nodeHash i) a)) =
      fun i a => u.vel * nodeVel uslCutoff (g.mass (c.nodeHash i)) (g.momentNt (c.nodeHash i) a) := by
    funext i a; exact nodeVel_units (hg _) _ _
  simp only [e1, e2, ghostBlend_units]
  generalize ghostBlend c gh (fun i a => nodeVel uslCutoff (g.mass (c.nodeHash i)) (g.moment (c.nodeHash i) a)) = vs
  generalize ghostBlend c gh (fun i a => nodeVel uslCutoff (g.mass (c.nodeHash i)) (g.momentNt (c.nodeHash i) a)) = vn
  have eV : ∀ p a, pointSum (u.inter c) (fun i => (u.inter c).shapeVal i * (u.vel * vn i a)) p =
      u.vel * pointSum c (fun i => c.shapeVal i * vn i a) p := by
    intro p a
    rw [← pointSum_units]
    unfold pointSum
    refine Finset.sum_congr rfl fun i _ => ?_
    simp only [Spec.UnitSystem.inter]; ring
  have eD : ∀ p a, pointSum (u.inter c) (fun i => (u.inter c).shapeVal i * (u.vel * vn i a - u.vel * vs i a)) p =
      u.vel * pointSum c (fun i => c.shapeVal i * (vn i a - vs i a)) p := by
    intro p a
    rw [← pointSum_units]
    unfold pointSum
    refine Finset.sum_congr rfl fun i _ => ?_
    simp only [Spec.UnitSystem.inter]; ring
  have eL : ∀ p j k, pointSum (u.inter c) (fun i => (u.inter c).shapeGrad i j * -(pad3 (fun a => u.vel * vn i a) k)) p =
      1 / u.time * pointSum c (fun i => c.shapeGrad i j * -(pad3 (vn i) k)) p := by
    intro p j k
    rw [← pointSum_units, ← hv']
    unfold pointSum
    refine Finset.sum_congr rfl fun i _ => ?_
    simp only [Spec.UnitSystem.inter, pad3_units]; ring
  simp only [eV, eD, eL]
  have eP : ∀ p : Fin n, _ := fun p => planeL_units (dim := dim) (1 / u.time)
    (fun j k => pointSum c (fun i => c.shapeGrad i j * -(pad3 (vn i) k)) p)
  simp only [eP]
  have eS : ∀ M : Mat3 K, (u.time * dt) • (1 / u.time) • M = dt • M := by
    intro M
    rw [smul_smul]; congr 1; field_simp
  simp only [eS]
  simp only [Spec.UnitSystem.mp, MPState.mk.injEq, true_and, and_true]
  refine ⟨?_, ?_, ?_⟩
  · funext p a; rw [← hv]; ring
  · funext p a; ring
  · funext p; ring

theorem reset_units (s : MPState K dim n) : resetBody (u.mp s) = u.mp (resetBody s) := by
  unfold resetBody
  simp [Spec.UnitSystem.mp]

theorem argmin_units [IsStrictOrderedRing K] {c : K} (hc : 0 < c) : ∀ (d : ℕ) (f : Fin (d + 1) → K),
    argmin d (fun i => c * f i) = argmin d f
  | 0, _ => rfl
  | d + 1, f => by
    have ih := argmin_units hc d (fun i => f i.castSucc)
    simp only [argmin, ih, mul_lt_mul_iff_right₀ hc]

/-! ### Forces -/

theorem gravity_units (grav : Fin dim → K) (g : GridArrays K dim) :
    gravityGrid (fun a => u.accel * grav a) (u.grid g) = u.grid (gravityGrid grav g) := by
  unfold gravityGrid
  simp only [Spec.UnitSystem.grid, GridArrays.mk.injEq, true_and]
  funext j a
  simp only [Spec.UnitSystem.force, Spec.UnitSystem.accel]; ring

theorem sgn_units [IsStrictOrderedRing K] {c : K} (hc : 0 < c) (x : K) : sgn (c * x) = sgn x := by
  unfold sgn
  simp only [mul_neg_iff, hc, hc.ne', mul_eq_zero, false_or, true_and, not_lt_of_gt hc, false_and, or_false]

theorem dampForce_units [IsStrictOrderedRing K] {c : K} (hc : 0 < c) (alpha f v v' : K) (hv : sgn v' = sgn v) :
    dampForce alpha (c * f) v' = c * dampForce alpha f v := by
  unfold dampForce
  rw [hv, abs_mul, abs_of_pos hc]; ring

theorem vel_pos [IsStrictOrderedRing K] : 0 < u.vel := div_pos u.len_pos u.time_pos

theorem force_pos [IsStrictOrderedRing K] : 0 < u.force :=
  div_pos (mul_pos u.mass_pos u.len_pos) (pow_pos u.time_pos 2)

theorem dampingBody_units [IsStrictOrderedRing K] (alpha : K) (s : MPState K dim n) :
    dampingBody alpha (u.mp s) = u.mp (dampingBody alpha s) := by
  unfold dampingBody
  simp only [Spec.UnitSystem.mp, MPState.mk.injEq, true_and, and_true]
  funext p a
  exact dampForce_units (force_pos u) _ _ _ _ (sgn_units (vel_pos u) _)

theorem sgn_div_units [IsStrictOrderedRing K] {d : K} (hd : 0 < d) (x : K) : sgn (x / d) = sgn x := by
  rw [div_eq_inv_mul, sgn_units (inv_pos.mpr hd)]

theorem dampingGrid_units [IsStrictOrderedRing K] (alpha : K) (g : GridArrays K dim) (hg : ∀ j, Weighed u (g.mass j)) :
    dampingGrid alpha (u.grid g) = u.grid (dampingGrid alpha g) := by
  unfold dampingGrid
  simp only [Spec.UnitSystem.grid, GridArrays.mk.injEq, true_and]
  funext j a
  refine dampForce_units (force_pos u) _ _ _ _ ?_
  have h0 := (hg j).nonneg
  rw [sgn_div_units, sgn_div_units, sgn_units (mul_pos u.mass_pos (vel_pos u))]
  · positivity
  · have := mul_nonneg u.mass_pos.le h0
    positivity

/-- Without friction the correction at a wall is the removal of the normal relative velocity. -/
theorem contact_frictionless [IsStrictOrderedRing K] (sqrt : K → K) (v : Fin dim → K) (dist : K) (n vW : Fin dim → K) (dt gap : K) :
    frictionalContact sqrt v dist n vW 0 dt gap 0 = fun a => v a + max 0 (0 - dotv (fun a => v a - vW a) n) * n a := by
  unfold frictionalContact
  funext a
  have hr : ∀ t : K, (if t > 1 / 10 ^ 12 then min t 0 else 0) = 0 := by
    intro t
    split_ifs with ht
    · exact min_eq_right (le_of_lt (lt_trans (by positivity) ht))
    · rfl
  simp only [zero_mul, hr, zero_div, sub_zero, mul_one, mul_zero, max_self]
  ring

omit [LinearOrder K] in
theorem dotv_units (c : K) (x y : Fin dim → K) : dotv (fun a => c * x a) y = c * dotv x y := by
  unfold dotv
  rw [Finset.mul_sum]
  exact Finset.sum_congr rfl fun a _ => by ring

theorem collideNode_units [IsStrictOrderedRing K] (sqrt : K → K) (gap gap' dist : K) (v n vW : Fin dim → K) (dt dt' : K) (a : Fin dim) :
    collideNode sqrt gap' (u.len * dist) (fun b => u.vel * v b) n (fun b => u.vel * vW b) 0 dt' a =
      u.vel * collideNode sqrt gap dist v n vW 0 dt a := by
  have hd : u.len * dist ≤ 0 ↔ dist ≤ 0 := ⟨fun h => not_lt.mp fun h' => absurd (mul_pos u.len_pos h') (not_lt.mpr h),
    fun h => mul_nonpos_of_nonneg_of_nonpos u.len_pos.le h⟩
  unfold collideNode
  have e : (fun b => u.vel * v b - u.vel * vW b) = fun b => u.vel * (v b - vW b) := by funext b; ring
  simp only [contact_frictionless, e, dotv_units, hd]
  by_cases h : dist ≤ 0
  · simp only [h, true_or, if_true]
    have : max 0 (0 - u.vel * dotv (fun b => v b - vW b) n) = u.vel * max 0 (0 - dotv (fun b => v b - vW b) n) := by
      rw [mul_max_of_nonneg _ _ (vel_pos u).le]; congr 1 <;> ring
    rw [this]; ring
  · simp only [h, false_and, or_false, if_false]

theorem collideGrid_units [IsStrictOrderedRing K] (sqrt : K → K) (gap gap' dt dt' : K) (geo : Geom K dim ℕ) (g : GridArrays K dim)
    (hg : ∀ j, Weighed u (g.mass j)) :
    collideGrid sqrt gap' 0 dt' (u.geom geo) (u.grid g) = u.grid (collideGrid sqrt gap 0 dt geo g) := by
  have h1 := u.mass_pos.ne'
  unfold collideGrid
  simp only [Spec.UnitSystem.grid, Spec.UnitSystem.geom, GridArrays.mk.injEq, true_and, and_true, zero_mul]
  funext j a
  have e : (fun b => u.mass * u.vel * g.momentNt j b * if u.mass * g.mass j > 1 / 10 ^ 14 then 1 / (u.mass * g.mass j) else 0) =
      fun b => u.vel * (g.momentNt j b * if g.mass j > 1 / 10 ^ 14 then 1 / g.mass j else 0) := by
    funext b
    simp only [gt_iff_lt, (hg j).cut14]
    split_ifs with hc
    · have hm : g.mass j ≠ 0 := (lt_trans (by positivity) hc).ne'
      field_simp
    · simp
  refine (congrArg (· * (u.mass * g.mass j)) ((congrArg (fun v => collideNode sqrt gap' (u.len * geo.dists j) v (geo.normals j)
    (fun b => u.vel * geo.wallVels j b) 0 dt' a) e).trans (collideNode_units u sqrt gap gap' _ _ _ _ dt dt' a))).trans ?_
  ring

end UnitChange
end
end Hydrax
