import Verif.Lemmas.LatScene
import Verif.Lemmas.ComputeApi
import Verif.Lemmas.SceneRel
import Verif.Model.Asflip

/-!
# Two grids on one lattice (helper lemmas)
-/

set_option linter.unusedSectionVars false

namespace Hydrax

open Spec

section
variable {K : Type*} [Field K] [LinearOrder K] [IsStrictOrderedRing K] [FloorRing K] {dim : ℕ}

namespace Spec

/-- The nodes of both grids lie on one lattice: node `k` of the first has the place of node `k + m` of the second. -/
structure SameLattice (g g' : GridDomain K dim) (m : Fin dim → ℤ) : Prop where
  cell : g'.cellSize = g.cellSize
  inv : g'.invCellSize = g.invCellSize
  one : g.cellSize * g.invCellSize = 1
  origin : ∀ d, g'.origin d = g.origin d - m d * g.cellSize

end Spec

variable {g g' : GridDomain K dim} {m : Fin dim → ℤ}

theorem baseId_add (ker : Kernel) (t : K) (k : ℤ) : baseId ker (t + k) = baseId ker t + k := by
  cases ker
  · exact Int.floor_add_intCast ..
  · simp only [baseId]
    rw [show t + (k : K) - 1 / 2 = t - 1 / 2 + k by ring, Int.floor_add_intCast]
  · exact Int.floor_add_intCast ..

theorem Spec.SameLattice.basePos (h : SameLattice g g' m) (x : Fin dim → K) (d : Fin dim) : basePos g' x d = basePos g x d + m d := by
  have h1 := h.one
  unfold Hydrax.basePos
  rw [h.inv, h.origin]
  linear_combination (m d : K) * h1

theorem Spec.SameLattice.nodeIdx (h : SameLattice g g' m) (ker : Kernel) (x : Fin dim → K) (s : ℕ) (d : Fin dim) :
    nodeIdx ker g' x s d = nodeIdx ker g x s d + m d := by
  unfold Hydrax.nodeIdx
  rw [h.basePos, baseId_add]
  ring

/-- Nodes of the first grid that are nodes of the second. -/
def Common (g g' : GridDomain K dim) (m : Fin dim → ℤ) (j : ℕ) : Prop :=
  ∃ k : Fin dim → ℤ, isValid g.gridSize k ∧ isValid g'.gridSize (fun d => k d + m d) ∧ nodeHashOf g k = j

/-- The number of a common node in the second grid. -/
def renum (g g' : GridDomain K dim) (m : Fin dim → ℤ) (j : ℕ) : ℕ :=
  nodeHashOf g' fun d => (unravel dim g.gridSize j d : ℤ) + m d

theorem renum_node {k : Fin dim → ℤ} (hk : isValid g.gridSize k) : renum g g' m (nodeHashOf g k) = nodeHashOf g' fun d => k d + m d := by
  unfold renum
  congr 1
  funext d
  unfold nodeHashOf
  rw [unravel_ravel dim g.gridSize _ fun d => by have := hk d; omega]
  have := (hk d).1
  omega

theorem renum_inj {i j : ℕ} (hi : Common g g' m i) (hj : Common g g' m j) (h : renum g g' m i = renum g g' m j) : i = j := by
  obtain ⟨k, k1, k2, rfl⟩ := hi
  obtain ⟨l, l1, l2, rfl⟩ := hj
  rw [renum_node k1, renum_node l1] at h
  have := nodeHashOf_injective g' _ _ k2 l2 h
  have : k = l := funext fun d => by have h := congrFun this d; omega
  rw [this]

theorem renum_position (h : SameLattice g g' m) {j : ℕ} (hj : Common g g' m j) : g'.positionStack (renum g g' m j) = g.positionStack j := by
  obtain ⟨k, k1, k2, rfl⟩ := hj
  rw [renum_node k1, positionStack_nodeHashOf g' _ k2, positionStack_nodeHashOf g _ k1]
  funext d
  unfold latticePos
  rw [h.cell, h.origin]
  push_cast
  ring

/-- The same interactions with other numbers of the nodes. -/
def InteractionCache.renumber {n w : ℕ} (c : InteractionCache K n w) (φ : ℕ → ℕ) : InteractionCache K n w :=
  { c with nodeHash := fun i => φ (c.nodeHash i) }

theorem compute_embed (h : SameLattice g g' m) (ker : Kernel) {n : ℕ} (pos : Fin n → Fin dim → K)
    (h1 : ∀ q, StencilInside ker g (pos q)) (h2 : ∀ q, StencilInside ker g' (pos q)) :
    compute ker g' pos = (compute ker g pos).renumber (renum g g' m) ∧ ∀ i, Common g g' m ((compute ker g pos).nodeHash i) := by
  have hd : ∀ x s, (fun d => basePos g' x d - (nodeIdx ker g' x s d : K)) = fun d => basePos g x d - (nodeIdx ker g x s d : K) := by
    intro x s
    funext d
    rw [h.basePos, h.nodeIdx]
    push_cast
    ring
  have hn : ∀ x s, nodeIdx ker g' x s = fun d => nodeIdx ker g x s d + m d := fun x s => funext fun d => h.nodeIdx ker x s d
  have key : ∀ q (s : ℕ), s < windowSize ker dim →
      computeSingle ker g' (pos q) s = { computeSingle ker g (pos q) s with nodeHash := renum g g' m (computeSingle ker g (pos q) s).nodeHash } := by
    intro q s hs
    simp only [computeSingle, if_pos (h1 q s hs), if_pos (h2 q s hs), hd, h.inv, Interaction.mk.injEq, and_true]
    rw [clipHash_of_valid g _ (h1 q s hs), clipHash_of_valid g' _ (h2 q s hs), renum_node (h1 q s hs), hn]
  constructor
  · refine InteractionCache.mk.injEq .. |>.mpr ⟨?_, ?_, ?_, ?_, ?_⟩
    · exact funext fun i => congrArg Interaction.nodeHash (key i.divNat _ i.modNat.isLt)
    · exact funext fun i => (congrArg Interaction.shapeVal (key i.divNat _ i.modNat.isLt) :)
    · rfl
    · exact funext fun i => (congrArg Interaction.shapeGrad (key i.divNat _ i.modNat.isLt) :)
    · exact ⟨funext fun i => (congrArg Interaction.relDist (key i.divNat _ i.modNat.isLt) :), rfl, rfl⟩
  · intro i
    have hs := h1 i.divNat i.modNat.val i.modNat.isLt
    refine ⟨nodeIdx ker g (pos i.divNat) i.modNat.val, hs, ?_, (clipHash_of_valid g _ hs).symm⟩
    rw [← hn]
    exact h2 i.divNat i.modNat.val i.modNat.isLt

end

/-! ### Transfers -/

section
variable {K : Type*} [Field K] [LinearOrder K] {dim n w : ℕ} {N : ℕ → Prop} {φ : ℕ → ℕ}

/-- The arrays of the second grid hold at the common nodes what those of the first hold. -/
def GridEmb (N : ℕ → Prop) (φ : ℕ → ℕ) (a a' : GridArrays K dim) : Prop :=
  ∀ j, N j → a'.mass (φ j) = a.mass j ∧ a'.moment (φ j) = a.moment j ∧ a'.momentNt (φ j) = a.momentNt j ∧ a'.force (φ j) = a.force j

theorem scatter_embed (hφ : ∀ i j, N i → N j → φ i = φ j → i = j) {M : ℕ} (idx : Fin M → ℕ) (hN : ∀ i, N (idx i)) (vals : Fin M → K) {j : ℕ}
    (hj : N j) : scatterAdd (fun i => φ (idx i)) vals (φ j) = scatterAdd idx vals j := by
  unfold scatterAdd
  refine Finset.sum_congr rfl fun i _ => ?_
  by_cases h : idx i = j
  · rw [if_pos h, if_pos (congrArg φ h)]
  · rw [if_neg h, if_neg fun h' => h (hφ _ _ (hN i) hj h')]

variable {c : InteractionCache K n w} {a a' : GridArrays K dim}

theorem p2g_embed (hφ : ∀ i j, N i → N j → φ i = φ j → i = j) (hN : ∀ i, N (c.nodeHash i)) (s : MPState K dim n) (ha : GridEmb N φ a a') :
    GridEmb N φ (p2gBody c s a) (p2gBody (c.renumber φ) s a') := by
  intro j hj
  obtain ⟨h1, h2, h3, h4⟩ := ha j hj
  refine ⟨?_, ?_, h3, ?_⟩
  · exact congrArg₂ (· + ·) h1 (scatter_embed hφ c.nodeHash hN _ hj)
  · exact funext fun b => congrArg₂ (· + ·) (congrFun h2 b) (scatter_embed hφ c.nodeHash hN _ hj)
  · exact funext fun b => congrArg (0 + ·) (scatter_embed hφ c.nodeHash hN _ hj)

theorem aflipP2g_embed (hφ : ∀ i j, N i → N j → φ i = φ j → i = j) (hN : ∀ i, N (c.nodeHash i)) (cell : K) (B : Fin n → Mat3 K)
    (s : MPState K dim n) (ha : GridEmb N φ a a') : GridEmb N φ (aflipP2gBody cell c B s a) (aflipP2gBody cell (c.renumber φ) B s a') := by
  intro j hj
  obtain ⟨h1, h2, h3, h4⟩ := ha j hj
  refine ⟨?_, ?_, h3, ?_⟩
  · exact congrArg₂ (· + ·) h1 (scatter_embed hφ c.nodeHash hN _ hj)
  · exact funext fun b => congrArg₂ (· + ·) (congrFun h2 b) (scatter_embed hφ c.nodeHash hN _ hj)
  · exact funext fun b => congrArg (0 + ·) (scatter_embed hφ c.nodeHash hN _ hj)

theorem g2p_embed (hN : ∀ i, N (c.nodeHash i)) (ha : GridEmb N φ a a') (alpha dt : K) (gh : Option (Fin n → Fin dim → K)) (s : MPState K dim n) :
    g2pBody alpha dt (c.renumber φ) gh a' s = g2pBody alpha dt c gh a s := by
  have h1 : ∀ i, a'.mass ((c.renumber φ).nodeHash i) = a.mass (c.nodeHash i) := fun i => (ha _ (hN i)).1
  have h2 : ∀ i, a'.moment ((c.renumber φ).nodeHash i) = a.moment (c.nodeHash i) := fun i => (ha _ (hN i)).2.1
  have h3 : ∀ i, a'.momentNt ((c.renumber φ).nodeHash i) = a.momentNt (c.nodeHash i) := fun i => (ha _ (hN i)).2.2.1
  simp only [g2pBody, h1, h2, h3]
  rfl

theorem aflipG2p_embed (hN : ∀ i, N (c.nodeHash i)) (ha : GridEmb N φ a a') (sqrt : K → K) (pr : AflipParams K) (cell dt : K)
    (s : MPState K dim n) : aflipG2pBody sqrt pr cell dt (c.renumber φ) a' s = aflipG2pBody sqrt pr cell dt c a s := by
  have h1 : ∀ i, a'.mass ((c.renumber φ).nodeHash i) = a.mass (c.nodeHash i) := fun i => (ha _ (hN i)).1
  have h2 : ∀ i, a'.moment ((c.renumber φ).nodeHash i) = a.moment (c.nodeHash i) := fun i => (ha _ (hN i)).2.1
  have h3 : ∀ i, a'.momentNt ((c.renumber φ).nodeHash i) = a.momentNt (c.nodeHash i) := fun i => (ha _ (hN i)).2.2.1
  simp only [aflipG2pBody, aflipG2pMls, aflipGather, dynAlpha, h1, h2, h3]
  rfl

end

/-! ### The stages of a step -/

section
variable {z : Sz} {K : Type*} [Field K] [LinearOrder K] [IsStrictOrderedRing K] [FloorRing K] {dim : ℕ} {SS LS : Type*}

inductive InterEmb {n : ℕ} (N : ℕ → Prop) (φ : ℕ → ℕ) : Option (Σ ker : Kernel, InteractionCache K n (windowSize ker dim)) →
    Option (Σ ker : Kernel, InteractionCache K n (windowSize ker dim)) → Prop
  | none : InterEmb N φ none none
  | some (ker : Kernel) (c : InteractionCache K n (windowSize ker dim)) (h : ∀ i, N (c.nodeHash i)) :
    InterEmb N φ (some ⟨ker, c⟩) (some ⟨ker, c.renumber φ⟩)

structure CtxEmb (N : Fin z.G → ℕ → Prop) (φ : Fin z.G → ℕ → ℕ) (x x' : Ctx z K dim SS LS (ForceState K dim)) : Prop where
  world : x'.world = x.world
  mech : x'.mech = x.mech
  inter : ∀ p g, InterEmb (N g) (φ g) (x.cache.interactions p g) (x'.cache.interactions p g)
  grids : ∀ g, GridEmb (N g) (φ g) (x.cache.grids g) (x'.cache.grids g)
  mpGeoms : x'.cache.mpGeoms = x.cache.mpGeoms
  nodeGeoms : ∀ g d j, N g j → (x'.cache.nodeGeoms g d).dists (φ g j) = (x.cache.nodeGeoms g d).dists j ∧
    (x'.cache.nodeGeoms g d).normals (φ g j) = (x.cache.nodeGeoms g d).normals j ∧
    (x'.cache.nodeGeoms g d).wallVels (φ g j) = (x.cache.nodeGeoms g d).wallVels j ∧
    (x'.cache.nodeGeoms g d).friction (φ g j) = (x.cache.nodeGeoms g d).friction j

variable {N : Fin z.G → ℕ → Prop} {φ : Fin z.G → ℕ → ℕ} {x x' : Ctx z K dim SS LS (ForceState K dim)}

theorem CtxEmb.setGrid (hx : CtxEmb N φ x x') (g : Fin z.G) {a a' : GridArrays K dim} (ha : GridEmb (N g) (φ g) a a') :
    CtxEmb N φ (x.setGrid g a) (x'.setGrid g a') where
  world := hx.world
  mech := hx.mech
  inter := hx.inter
  grids k := by
    unfold Ctx.setGrid
    by_cases hk : k = g
    · subst hk; simpa using ha
    · simpa [Function.update_of_ne hk] using hx.grids k
  mpGeoms := hx.mpGeoms
  nodeGeoms := hx.nodeGeoms

theorem CtxEmb.setBody (hx : CtxEmb N φ x x') (p : Fin z.P) (b : Body K dim (z.np p)) : CtxEmb N φ (x.setBody p b) (x'.setBody p b) where
  world := by unfold Ctx.setBody; simp only [hx.world]
  mech := hx.mech
  inter := hx.inter
  grids := hx.grids
  mpGeoms := hx.mpGeoms
  nodeGeoms := hx.nodeGeoms

theorem CtxEmb.foldGrids {f : Ctx z K dim SS LS (ForceState K dim) → Fin z.G → GridArrays K dim}
    (hf : ∀ x x', CtxEmb N φ x x' → ∀ g, GridEmb (N g) (φ g) (f x g) (f x' g)) (gs : List (Fin z.G)) :
    ∀ {x x'}, CtxEmb N φ x x' →
      CtxEmb N φ (gs.foldl (fun x g => x.setGrid g (f x g)) x) (gs.foldl (fun x g => x.setGrid g (f x g)) x') := by
  induction gs with
  | nil => intro x x' hx; exact hx
  | cons g gs ih => intro x x' hx; exact ih (hx.setGrid g (hf _ _ hx g))

theorem libForce_embed {f : ForceHooks z K dim SS LS (ForceState K dim)} (hf : LibForce f) (dt t : K) (hx : CtxEmb N φ x x') :
    ExSym (CtxEmb N φ) (f.preP2g x dt t) (f.preP2g x' dt t) ∧
    ExSym (CtxEmb N φ) (f.gridForces x dt t) (f.gridForces x' dt t) ∧
    ExSym (CtxEmb N φ) (f.gridMoments x dt t) (f.gridMoments x' dt t) := by
  have ef := hx.mech
  cases hf with
  | gravity onGrid ps gs fIdx =>
    refine ⟨?_, ?_, .ok hx⟩
    · simp only [gravityForce, ef]
      split_ifs
      · exact .ok hx
      · cases x.mech.forces[fIdx]? with
        | none => exact .error _
        | some f => exact .ok hx
      · cases getGravity x.mech.forces fIdx <;> exact .error _
    · simp only [gravityForce, ef]
      split_ifs
      · exact .ok hx
      · cases getGravity x.mech.forces fIdx with
        | error e => exact .error _
        | ok g =>
          refine .ok (CtxEmb.foldGrids (f := fun x k => gravityGrid g (x.cache.grids k)) (fun x x' hx k j hj => ?_) gs hx)
          obtain ⟨h1, h2, h3, h4⟩ := hx.grids k j hj
          refine ⟨h1, h2, h3, ?_⟩
          funext a
          simp only [gravityGrid, h1, h4]
  | damping onGrid ps gs fIdx =>
    refine ⟨?_, ?_, .ok hx⟩
    · simp only [dampingForce, ef]
      split_ifs
      · exact .ok hx
      · cases getDamping x.mech.forces fIdx with
        | error e => exact .error _
        | ok al =>
          refine ExSym.foldE (R := CtxEmb N φ) (fun x x' p hx => ?_) ps hx
          rw [hx.world]
          cases x.world.bodies p with
          | rigid r => exact .error _
          | deformable s => exact .ok (hx.setBody p _)
    · simp only [dampingForce, ef]
      split_ifs
      · exact .ok hx
      · cases getDamping x.mech.forces fIdx with
        | error e => exact .error _
        | ok al =>
          refine .ok (CtxEmb.foldGrids (f := fun x k => dampingGrid al (x.cache.grids k)) (fun x x' hx k j hj => ?_) gs hx)
          obtain ⟨h1, h2, h3, h4⟩ := hx.grids k j hj
          refine ⟨h1, h2, h3, ?_⟩
          funext a
          simp only [dampingGrid, h1, h2, h4]
  | sdfCollider fn sdf gs gap base =>
    refine ⟨.ok hx, .ok hx, ?_⟩
    cases sdf with
    | none => exact .ok hx
    | some d =>
      refine .ok (CtxEmb.foldGrids (f := fun x k => collideGrid fn.sqrt gap base dt (x.cache.nodeGeoms k d) (x.cache.grids k))
        (fun x x' hx k j hj => ?_) gs hx)
      obtain ⟨h1, h2, h3, h4⟩ := hx.grids k j hj
      obtain ⟨g1, g2, g3, g4⟩ := hx.nodeGeoms k d j hj
      refine ⟨h1, h2, ?_, h4⟩
      funext a
      simp only [collideGrid, h1, h3, g1, g2, g3, g4]
  | gridContact => exact ⟨.ok hx, .ok hx, .error _⟩

theorem p2gCoupling_embed (hφ : ∀ g i j, N g i → N g j → φ g i = φ g j → i = j) (c : Coupling z) (hx : CtxEmb N φ x x') :
    ExSym (CtxEmb N φ) (p2gCoupling x c) (p2gCoupling x' c) := by
  unfold p2gCoupling
  by_cases hk : c.skip = true
  · rw [if_pos hk, if_pos hk]; exact .ok hx
  · rw [if_neg hk, if_neg hk, hx.world]
    have hi := hx.inter c.p c.g
    generalize x.cache.interactions c.p c.g = a at hi ⊢
    generalize x'.cache.interactions c.p c.g = a' at hi ⊢
    cases hi with
    | none => exact .error _
    | some ker ic hN =>
      cases x.world.bodies c.p with
      | rigid r => exact .error _
      | deformable s =>
        simp only
        split_ifs
        · exact .error _
        · exact .ok (hx.setGrid c.g (p2g_embed (hφ c.g) hN s (hx.grids c.g)))

theorem aflipP2gCoupling_embed (hφ : ∀ g i j, N g i → N g j → φ g i = φ g j → i = j) {dom dom' : Fin z.G → GridDomain K dim}
    (hd : ∀ g, (dom' g).cellSize = (dom g).cellSize) (c : Coupling z) (hx : CtxEmb N φ x x') :
    ExSym (CtxEmb N φ) (aflipP2gCoupling dom x c) (aflipP2gCoupling dom' x' c) := by
  unfold aflipP2gCoupling
  by_cases hk : c.skip = true
  · rw [if_pos hk, if_pos hk]; exact .ok hx
  · rw [if_neg hk, if_neg hk, hx.world, hd, hx.mech]
    have hi := hx.inter c.p c.g
    generalize x.cache.interactions c.p c.g = a at hi ⊢
    generalize x'.cache.interactions c.p c.g = a' at hi ⊢
    cases hi with
    | none => exact .error _
    | some ker ic hN =>
      cases x.world.bodies c.p with
      | rigid r => exact .error _
      | deformable s =>
        simp only
        split_ifs
        · exact .error _
        · exact .ok (hx.setGrid c.g (aflipP2g_embed (hφ c.g) hN _ _ s (hx.grids c.g)))

theorem integrate_embed {sv sv' : Solver z K dim SS LS (ForceState K dim)} (hf : sv'.forces = sv.forces) (hc : sv'.couplings = sv.couplings)
    (hl : ∀ f ∈ sv.forces, LibForce f) (dt t : K) (hx : CtxEmb N φ x x') :
    ExSym (CtxEmb N φ) (integrateGrid sv x dt t) (integrateGrid sv' x' dt t) := by
  unfold integrateGrid runHook
  rw [hf, hc]
  refine ExSym.andThen (ExSym.foldE_mem _ (fun f hf x x' hx => (libForce_embed (hl f hf) dt t hx).2.1) hx) fun x x' hx => ?_
  refine ExSym.andThen (ExSym.foldE (R := CtxEmb N φ) (fun x x' c hx => ?_) _ hx) fun x x' hx => ?_
  · unfold integrateCoupling
    split_ifs
    · exact .ok hx
    · refine .ok (hx.setGrid c.g fun j hj => ?_)
      obtain ⟨h1, h2, h3, h4⟩ := hx.grids c.g j hj
      refine ⟨h1, h2, ?_, h4⟩
      funext a
      simp only [integrateBody, h2, h4]
  · exact ExSym.foldE_mem _ (fun f hf x x' hx => (libForce_embed (hl f hf) dt t hx).2.2) hx

theorem ghost_embed (hx : CtxEmb N φ x x') (p : Fin z.P) (s : MPState K dim (z.np p)) : ghostVelocity x' p s = ghostVelocity x p s := by
  unfold ghostVelocity
  rw [hx.mpGeoms]

theorem g2pCoupling_embed (alpha dt : K) (c : Coupling z) (hx : CtxEmb N φ x x') :
    ExSym (CtxEmb N φ) (g2pCoupling alpha dt x c) (g2pCoupling alpha dt x' c) := by
  unfold g2pCoupling
  by_cases hk : c.skip = true
  · rw [if_pos hk, if_pos hk]; exact .ok hx
  · rw [if_neg hk, if_neg hk, hx.world]
    have hi := hx.inter c.p c.g
    generalize x.cache.interactions c.p c.g = a at hi ⊢
    generalize x'.cache.interactions c.p c.g = a' at hi ⊢
    cases hi with
    | none => exact .error _
    | some ker ic hN =>
      cases x.world.bodies c.p with
      | rigid r => exact .error _
      | deformable s =>
        simp only [ghost_embed hx, g2p_embed hN (hx.grids c.g)]
        split_ifs
        · exact .error _
        · exact .ok (hx.setBody c.p _)

theorem aflipG2pCoupling_embed (fn : MathFns K) (pr : AflipParams K) {dom dom' : Fin z.G → GridDomain K dim}
    (hd : ∀ g, (dom' g).cellSize = (dom g).cellSize) (dt : K) (c : Coupling z) (hx : CtxEmb N φ x x') :
    ExSym (CtxEmb N φ) (aflipG2pCoupling fn pr dom dt x c) (aflipG2pCoupling fn pr dom' dt x' c) := by
  unfold aflipG2pCoupling
  by_cases hk : c.skip = true
  · rw [if_pos hk, if_pos hk]; exact .ok hx
  · rw [if_neg hk, if_neg hk, hx.world, hd, hx.mech]
    have hi := hx.inter c.p c.g
    generalize x.cache.interactions c.p c.g = a at hi ⊢
    generalize x'.cache.interactions c.p c.g = a' at hi ⊢
    cases hi with
    | none => exact .error _
    | some ker ic hN =>
      cases x.world.bodies c.p with
      | rigid r => exact .error _
      | deformable s =>
        simp only [aflipG2p_embed hN (hx.grids c.g)]
        split_ifs
        · cases aflipG2pBody fn.sqrt pr (dom c.g).cellSize dt ic (x.cache.grids c.g) s with
          | error e => exact .error _
          | ok r =>
            have h1 := hx.setBody c.p (.deformable r.1)
            exact .ok ⟨h1.world, rfl, h1.inter, h1.grids, h1.mpGeoms, h1.nodeGeoms⟩
        · exact .error _

theorem law_embed (fn : MathFns K) (laws : Fin z.C → Law K dim LS) (dt : K) (c : Coupling z) (hx : CtxEmb N φ x x') :
    ExSym (CtxEmb N φ) (lawCoupling fn laws dt x c) (lawCoupling fn laws dt x' c) := by
  unfold lawCoupling
  by_cases hk : c.skip = true
  · rw [if_pos hk, if_pos hk]; exact .ok hx
  · rw [if_neg hk, if_neg hk, hx.world, hx.mech]
    cases x.world.bodies c.p with
    | rigid r => exact .error _
    | deformable s =>
      simp only
      cases (laws c.c).update s (x.mech.laws c.c) dt with
      | error e => exact .error _
      | ok r =>
        have h1 := hx.setBody c.p (.deformable (removeShear fn (laws c.c).requiresFReset r.1))
        exact .ok ⟨h1.world, rfl, h1.inter, h1.grids, h1.mpGeoms, h1.nodeGeoms⟩

/-! ### The start of a step -/

theorem conn_embed {sv sv' : Solver z K dim SS LS (ForceState K dim)} (hc : sv'.couplings = sv.couplings) (w : World z K dim SS)
    {m : Fin z.G → Fin dim → ℤ} (hm : ∀ g, SameLattice (sv.domains g) (sv'.domains g) (m g))
    (h1 : ∀ c ∈ sv.couplings, ∀ q, StencilInside c.ker (sv.domains c.g) ((w.bodies c.p).position q))
    (h2 : ∀ c ∈ sv.couplings, ∀ q, StencilInside c.ker (sv'.domains c.g) ((w.bodies c.p).position q)) (p : Fin z.P) (g : Fin z.G) :
    InterEmb (Common (sv.domains g) (sv'.domains g) (m g)) (renum (sv.domains g) (sv'.domains g) (m g)) (computeConnectivity sv w p g)
      (computeConnectivity sv' w p g) := by
  unfold computeConnectivity
  rw [hc]
  have key : ∀ (l : List (Coupling z)) (d d' : Inter z K dim), l ⊆ sv.couplings →
      (∀ p g, InterEmb (Common (sv.domains g) (sv'.domains g) (m g)) (renum (sv.domains g) (sv'.domains g) (m g)) (d p g) (d' p g)) →
      ∀ p g, InterEmb (Common (sv.domains g) (sv'.domains g) (m g)) (renum (sv.domains g) (sv'.domains g) (m g))
        (l.foldl (connStep sv w) d p g) (l.foldl (connStep sv' w) d' p g) := by
    intro l
    induction l with
    | nil => intro d d' _ h; exact h
    | cons c l ih =>
      intro d d' hl h
      refine ih _ _ (fun x hx => hl (List.mem_cons_of_mem _ hx)) fun p g => ?_
      unfold connStep Inter.set
      by_cases hp : p = c.p
      · subst hp
        rw [Function.update_self, Function.update_self]
        by_cases hg : g = c.g
        · subst hg
          rw [Function.update_self, Function.update_self]
          have hcm := hl List.mem_cons_self
          obtain ⟨e1, e2⟩ := compute_embed (hm c.g) c.ker (w.bodies c.p).position (h1 c hcm) (h2 c hcm)
          rw [e1]
          exact .some _ _ e2
        · rw [Function.update_of_ne hg, Function.update_of_ne hg]; exact h _ _
      · rw [Function.update_of_ne hp, Function.update_of_ne hp]; exact h _ _
  exact key _ _ _ (fun _ h => h) (fun _ _ => .none) p g

end

end Hydrax
