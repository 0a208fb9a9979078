import Verif.Lemmas.Local
import Verif.Lemmas.SceneRel

/-!
# One call on two scenes that agree on a set of points (helper lemmas)
-/

set_option linter.unusedSectionVars false

namespace Hydrax

open Spec

section
variable {z : Sz} {K : Type*} [Field K] [LinearOrder K] [IsStrictOrderedRing K] [FloorRing K] {dim : ℕ} {SS : Type*}

/-- A set of points of the scene. -/
abbrev PointSet (z : Sz) := (p : Fin z.P) → Fin (z.np p) → Prop

/-- Two scenes have the same obstacles and forces, and agree on the points of `D`: same data, same entries in the states of the laws
and of the solver. -/
structure Spec.SameOn (cs : List (Coupling z)) (D : PointSet z) (w w' : World z K dim SS)
    (m m' : Mech z K (LawState K) (ForceState K dim)) : Prop where
  sdfs : w.sdfs = w'.sdfs
  forces : m.forces = m'.forces
  bodies : ∀ p q, D p q → bodyPoint q (w.bodies p) = bodyPoint q (w'.bodies p)
  laws : ∀ c ∈ cs, c.skip = false → ∀ q, D c.p q → lawEntry q (m.laws c.c) = lawEntry q (m'.laws c.c)
  affine : ∀ c ∈ cs, c.skip = false → ∀ q : Fin (z.np c.p), D c.p q → m.solvers c.s q = m'.solvers c.s q

theorem Spec.SameOn.mono {cs : List (Coupling z)} {D E : PointSet z} {w w' : World z K dim SS}
    {m m' : Mech z K (LawState K) (ForceState K dim)} (h : SameOn cs D w w' m m') (hE : ∀ p q, E p q → D p q) :
    SameOn cs E w w' m m' :=
  ⟨h.sdfs, h.forces, fun p q hq => h.bodies p q (hE p q hq), fun c hc hk q hq => h.laws c hc hk q (hE _ q hq),
    fun c hc hk q hq => h.affine c hc hk q (hE _ q hq)⟩

/-- Entries of the dictionaries agree. -/
inductive InterLoc {n : ℕ} (A : Fin n → Prop) (N : ℕ → Prop) :
    Option (Σ ker : Kernel, InteractionCache K n (windowSize ker dim)) →
    Option (Σ ker : Kernel, InteractionCache K n (windowSize ker dim)) → Prop
  | none : InterLoc A N none none
  | some (ker) {c c'} (hc : ListLoc A N c c') : InterLoc A N (some ⟨ker, c⟩) (some ⟨ker, c'⟩)

/-- Two intermediate states agree on the points of `D` and the nodes of `N`; the lists agree on the points of `A`; the points of `B` are
connected to nodes of `N` only. -/
structure CtxLoc (cs : List (Coupling z)) (A B D : PointSet z) (N : Fin z.G → ℕ → Prop)
    (x x' : Ctx z K dim SS (LawState K) (ForceState K dim)) : Prop where
  same : SameOn cs D x.world x'.world x.mech x'.mech
  inter : ∀ p g, InterLoc (A p) (N g) (x.cache.interactions p g) (x'.cache.interactions p g)
  nodes : ∀ p q, B p q → ∀ g ker c, x.cache.interactions p g = some ⟨ker, c⟩ → NodesIn (N g) c q
  grids : ∀ g, GridLoc (N g) (x.cache.grids g) (x'.cache.grids g)
  geoms : ∀ g d, x.cache.nodeGeoms g d = x'.cache.nodeGeoms g d

variable {cs : List (Coupling z)} {A B D : PointSet z} {N : Fin z.G → ℕ → Prop}
  {x x' : Ctx z K dim SS (LawState K) (ForceState K dim)}

theorem CtxLoc.setGrid (hx : CtxLoc cs A B D N x x') (g : Fin z.G) {a a' : GridArrays K dim} (ha : GridLoc (N g) a a') :
    CtxLoc cs A B D N (x.setGrid g a) (x'.setGrid g a') where
  same := hx.same
  inter := hx.inter
  nodes := hx.nodes
  grids k := by
    unfold Ctx.setGrid
    by_cases hk : k = g
    · subst hk; simpa using ha
    · simpa [Function.update_of_ne hk] using hx.grids k
  geoms := hx.geoms

theorem CtxLoc.setBody (hx : CtxLoc cs A B D N x x') (p : Fin z.P) {b b' : Body K dim (z.np p)}
    (hb : ∀ q, D p q → bodyPoint q b = bodyPoint q b') : CtxLoc cs A B D N (x.setBody p b) (x'.setBody p b') where
  same := by
    refine ⟨hx.same.sdfs, hx.same.forces, fun k q hq => ?_, hx.same.laws, hx.same.affine⟩
    unfold Ctx.setBody World.setBody
    by_cases hk : k = p
    · subst hk; simpa using hb q hq
    · simpa [Function.update_of_ne hk] using hx.same.bodies k q hq
  inter := hx.inter
  nodes := hx.nodes
  grids := hx.grids
  geoms := hx.geoms

theorem CtxLoc.foldGrids {f f' : Ctx z K dim SS (LawState K) (ForceState K dim) → Fin z.G → GridArrays K dim}
    (hf : ∀ x x', CtxLoc cs A B D N x x' → ∀ g, GridLoc (N g) (f x g) (f' x' g)) (gs : List (Fin z.G)) :
    ∀ {x x'}, CtxLoc cs A B D N x x' →
      CtxLoc cs A B D N (gs.foldl (fun x g => x.setGrid g (f x g)) x) (gs.foldl (fun x g => x.setGrid g (f' x g)) x') := by
  induction gs with
  | nil => intro x x' hx; exact hx
  | cons g gs ih => intro x x' hx; exact ih (hx.setGrid g (hf _ _ hx g))

/-- Forces of the package act on nodes and points one by one. -/
theorem libForce_local {f : ForceHooks z K dim SS (LawState K) (ForceState K dim)} (hf : LibForce f) (dt t : K)
    (hx : CtxLoc cs A B D N x x') :
    Both (CtxLoc cs A B D N) (f.preP2g x dt t) (f.preP2g x' dt t) ∧
    Both (CtxLoc cs A B D N) (f.gridForces x dt t) (f.gridForces x' dt t) ∧
    Both (CtxLoc cs A B D N) (f.gridMoments x dt t) (f.gridMoments x' dt t) := by
  have ef := hx.same.forces
  cases hf with
  | gravity onGrid ps gs fIdx =>
    refine ⟨?_, ?_, .ok hx⟩
    · simp only [gravityForce, ← ef]
      split_ifs
      · exact .ok hx
      · cases x.mech.forces[fIdx]? with
        | none => exact .errL
        | some f => exact .ok hx
      · cases getGravity x.mech.forces fIdx <;> exact .errL
    · simp only [gravityForce, ← ef]
      split_ifs
      · exact .ok hx
      · cases getGravity x.mech.forces fIdx with
        | error e => exact .errL
        | ok g =>
          refine .ok (CtxLoc.foldGrids (f := fun x k => gravityGrid g (x.cache.grids k))
            (f' := fun x k => gravityGrid g (x.cache.grids k)) (fun x x' hx k j hj => ?_) gs hx)
          obtain ⟨h1, h2, h3, h4⟩ := hx.grids k j hj
          refine ⟨h1, h2, h3, ?_⟩
          funext a
          simp only [gravityGrid, h1, h4]
  | damping onGrid ps gs fIdx =>
    refine ⟨?_, ?_, .ok hx⟩
    · simp only [dampingForce, ← ef]
      split_ifs
      · exact .ok hx
      · cases getDamping x.mech.forces fIdx with
        | error e => exact .errL
        | ok al =>
          refine Both.foldE (R := CtxLoc cs A B D N) ps (fun p _ x x' hx => ?_) hx
          have hb := hx.same.bodies p
          generalize x.world.bodies p = b at hb ⊢
          generalize x'.world.bodies p = b' at hb ⊢
          cases b with
          | rigid r => exact .errL
          | deformable s =>
            cases b' with
            | rigid r => exact .errR
            | deformable s' =>
              refine .ok (hx.setBody p fun q hq => ?_)
              obtain ⟨p1, p2, p3, p4, p5, p6, p7, p8, p9, p10, p11⟩ := pointOf_eq (Body.deformable.inj (hb q hq))
              simp only [bodyPoint, dampingBody, pointOf, p1, p2, p3, p4, p5, p6, p7, p8, p9, p10, p11]
    · simp only [dampingForce, ← ef]
      split_ifs
      · exact .ok hx
      · cases getDamping x.mech.forces fIdx with
        | error e => exact .errL
        | ok al =>
          refine .ok (CtxLoc.foldGrids (f := fun x k => dampingGrid al (x.cache.grids k))
            (f' := fun x k => dampingGrid al (x.cache.grids k)) (fun x x' hx k j hj => ?_) gs hx)
          obtain ⟨h1, h2, h3, h4⟩ := hx.grids k j hj
          refine ⟨h1, h2, h3, ?_⟩
          funext a
          simp only [dampingGrid, h1, h2, h4]
  | sdfCollider fn sdf gs gap base =>
    refine ⟨.ok hx, .ok hx, ?_⟩
    cases sdf with
    | none => exact .ok hx
    | some d =>
      refine .ok (CtxLoc.foldGrids (f := fun x k => collideGrid fn.sqrt gap base dt (x.cache.nodeGeoms k d) (x.cache.grids k))
        (f' := fun x k => collideGrid fn.sqrt gap base dt (x.cache.nodeGeoms k d) (x.cache.grids k)) (fun x x' hx k j hj => ?_) gs hx)
      obtain ⟨h1, h2, h3, h4⟩ := hx.grids k j hj
      refine ⟨h1, h2, ?_, h4⟩
      funext a
      simp only [collideGrid, h1, h3, hx.geoms k d]
  | gridContact => exact ⟨.ok hx, .ok hx, .errL⟩

variable {sv : Solver z K dim SS (LawState K) (ForceState K dim)}

theorem runHook_local (hook : ForceHooks z K dim SS (LawState K) (ForceState K dim) → Ctx z K dim SS (LawState K) (ForceState K dim) →
      K → K → Except PyErr (Ctx z K dim SS (LawState K) (ForceState K dim))) (dt t : K)
    (hh : ∀ f ∈ sv.forces, ∀ x x', CtxLoc cs A B D N x x' → Both (CtxLoc cs A B D N) (hook f x dt t) (hook f x' dt t))
    (hx : CtxLoc cs A B D N x x') : Both (CtxLoc cs A B D N) (runHook hook sv.forces x dt t) (runHook hook sv.forces x' dt t) :=
  Both.foldE _ (fun f hf x x' hx => hh f hf x x' hx) hx

theorem p2gCoupling_local (c : Coupling z) (hx : CtxLoc cs A B A N x x') :
    Both (CtxLoc cs A B A N) (p2gCoupling x c) (p2gCoupling x' c) := by
  unfold p2gCoupling
  by_cases hk : c.skip = true
  · rw [if_pos hk, if_pos hk]; exact .ok hx
  · rw [if_neg hk, if_neg hk]
    have hi := hx.inter c.p c.g
    have hb := hx.same.bodies c.p
    generalize x.cache.interactions c.p c.g = a at hi ⊢
    generalize x'.cache.interactions c.p c.g = a' at hi ⊢
    generalize x.world.bodies c.p = b at hb ⊢
    generalize x'.world.bodies c.p = b' at hb ⊢
    cases hi with
    | none => exact .errL
    | some ker hc =>
      cases b with
      | rigid r => exact .errL
      | deformable s =>
        cases b' with
        | rigid r => exact .errR
        | deformable s' =>
          simp only
          split_ifs <;> first | exact .errL | exact .errR | skip
          exact .ok (hx.setGrid c.g (GridLoc.p2g hc (fun q hq => Body.deformable.inj (hb q hq)) (hx.grids c.g)))

theorem aflipP2gCoupling_local (dom : Fin z.G → GridDomain K dim) (c : Coupling z) (hcs : c ∈ cs) (hx : CtxLoc cs A B A N x x') :
    Both (CtxLoc cs A B A N) (aflipP2gCoupling dom x c) (aflipP2gCoupling dom x' c) := by
  unfold aflipP2gCoupling
  by_cases hk : c.skip = true
  · rw [if_pos hk, if_pos hk]; exact .ok hx
  · rw [if_neg hk, if_neg hk]
    have hi := hx.inter c.p c.g
    have hb := hx.same.bodies c.p
    generalize x.cache.interactions c.p c.g = a at hi ⊢
    generalize x'.cache.interactions c.p c.g = a' at hi ⊢
    generalize x.world.bodies c.p = b at hb ⊢
    generalize x'.world.bodies c.p = b' at hb ⊢
    cases hi with
    | none => exact .errL
    | some ker hc =>
      cases b with
      | rigid r => exact .errL
      | deformable s =>
        cases b' with
        | rigid r => exact .errR
        | deformable s' =>
          simp only
          split_ifs <;> first | exact .errL | exact .errR | skip
          exact .ok (hx.setGrid c.g (GridLoc.aflipP2g hc _ (fun q hq => hx.same.affine c hcs (by simpa using hk) q hq)
            (fun q hq => Body.deformable.inj (hb q hq)) (hx.grids c.g)))

theorem integrate_local (hl : ∀ f ∈ sv.forces, LibForce f) (dt t : K) (hx : CtxLoc cs A B D N x x') :
    Both (CtxLoc cs A B D N) (integrateGrid sv x dt t) (integrateGrid sv x' dt t) := by
  unfold integrateGrid
  refine Both.andThen (runHook_local _ dt t (fun f hf x x' hx => (libForce_local (hl f hf) dt t hx).2.1) hx) fun x x' hx => ?_
  refine Both.andThen (Both.foldE (R := CtxLoc cs A B D N) _ (fun c _ x x' hx => ?_) hx) fun x x' hx => ?_
  · unfold integrateCoupling
    split_ifs
    · exact .ok hx
    · refine .ok (hx.setGrid c.g fun j hj => ?_)
      obtain ⟨h1, h2, h3, h4⟩ := hx.grids c.g j hj
      refine ⟨h1, h2, ?_, h4⟩
      funext a
      simp only [integrateBody, h2, h4]
  · exact runHook_local _ dt t (fun f hf x x' hx => (libForce_local (hl f hf) dt t hx).2.2) hx

theorem g2pCoupling_local (hAB : ∀ p q, B p q → A p q) (alpha dt : K) (c : Coupling z) (hx : CtxLoc cs A B B N x x') :
    Both (CtxLoc cs A B B N) (g2pCoupling alpha dt x c) (g2pCoupling alpha dt x' c) := by
  unfold g2pCoupling
  by_cases hk : c.skip = true
  · rw [if_pos hk, if_pos hk]; exact .ok hx
  · rw [if_neg hk, if_neg hk]
    have hi := hx.inter c.p c.g
    have hn := fun q hq => hx.nodes c.p q hq c.g
    have hb := hx.same.bodies c.p
    generalize x.cache.interactions c.p c.g = a at hi hn ⊢
    generalize x'.cache.interactions c.p c.g = a' at hi ⊢
    generalize x.world.bodies c.p = b at hb ⊢
    generalize x'.world.bodies c.p = b' at hb ⊢
    cases hi with
    | none => exact .errL
    | some ker hc =>
      cases b with
      | rigid r => exact .errL
      | deformable s =>
        cases b' with
        | rigid r => exact .errR
        | deformable s' =>
          simp only
          split_ifs
          · exact .errL
          · refine .ok (hx.setBody c.p fun q hq => ?_)
            exact congrArg Body.deformable (g2p_local hc alpha dt _ _ (hx.grids c.g) (hAB _ q hq) (hn q hq _ _ rfl)
              (Body.deformable.inj (hb q hq)))

theorem aflipG2pCoupling_local (hAB : ∀ p q, B p q → A p q) (hown : ∀ c ∈ cs, c.skip = false → c.s.val = c.p.val) (fn : MathFns K)
    (pr : AflipParams K) (dom : Fin z.G → GridDomain K dim) (dt : K) (c : Coupling z) (hcs : c ∈ cs) (hx : CtxLoc cs A B B N x x') :
    Both (CtxLoc cs A B B N) (aflipG2pCoupling fn pr dom dt x c) (aflipG2pCoupling fn pr dom dt x' c) := by
  unfold aflipG2pCoupling
  by_cases hk : c.skip = true
  · rw [if_pos hk, if_pos hk]; exact .ok hx
  · rw [if_neg hk, if_neg hk]
    have hi := hx.inter c.p c.g
    have hn := fun q hq => hx.nodes c.p q hq c.g
    have hb := hx.same.bodies c.p
    generalize x.cache.interactions c.p c.g = a at hi hn ⊢
    generalize x'.cache.interactions c.p c.g = a' at hi ⊢
    generalize x.world.bodies c.p = b at hb ⊢
    generalize x'.world.bodies c.p = b' at hb ⊢
    cases hi with
    | none => exact .errL
    | some ker hc =>
      rename_i ic ic'
      cases b with
      | rigid r => exact .errL
      | deformable s =>
        cases b' with
        | rigid r => exact .errR
        | deformable s' =>
          simp only
          have hsp := hown c hcs (by simpa using hk)
          have hlt : c.p.val < z.S := hsp ▸ c.s.isLt
          rw [dif_pos hlt, dif_pos hlt]
          unfold aflipG2pBody
          split_ifs
          · exact .errL
          · simp only [Hydrax.andThen]
            have key := fun q hq => aflipG2p_local hc fn.sqrt pr (dom c.g).cellSize dt (hx.grids c.g) (hAB _ q hq) (hn q hq _ _ rfl)
              (Body.deformable.inj (hb q hq))
            generalize aflipG2pMls fn.sqrt pr (dom c.g).cellSize dt ic (x.cache.grids c.g) s = r at key
            generalize aflipG2pMls fn.sqrt pr (dom c.g).cellSize dt ic' (x'.cache.grids c.g) s' = r' at key
            have h1 := hx.setBody c.p (b := .deformable r.1) (b' := .deformable r'.1)
              fun q hq => congrArg Body.deformable (key q hq).1
            refine .ok ⟨⟨h1.same.sdfs, h1.same.forces, h1.same.bodies, h1.same.laws, fun d hd hdk q hq => ?_⟩, h1.inter, h1.nodes,
              h1.grids, h1.geoms⟩
            show Function.update x.mech.solvers ⟨c.p.val, hlt⟩ _ d.s q = Function.update x'.mech.solvers ⟨c.p.val, hlt⟩ _ d.s q
            by_cases hds : d.s = ⟨c.p.val, hlt⟩
            · rw [hds, Function.update_self, Function.update_self]
              have hdp : d.p = c.p := by
                apply Fin.ext
                rw [← hown d hd hdk, hds]
              have hq' : (q : ℕ) < z.np c.p := hdp ▸ q.isLt
              have hBq : B c.p ⟨q, hq'⟩ := by
                have : ∀ (p : Fin z.P) (e : d.p = p) (h : (q : ℕ) < z.np p), B p ⟨q, h⟩ := by
                  intro p e h; subst e; exact hq
                exact this c.p hdp hq'
              simp only [dif_pos hq', (key ⟨q, hq'⟩ hBq).2]
            · rw [Function.update_of_ne hds, Function.update_of_ne hds]
              exact hx.same.affine d hd hdk q hq

theorem law_local (hlib : ∀ c, LibLaw (sv.laws c))
    (hsep : ∀ c ∈ cs, ∀ d ∈ cs, c.skip = false → d.skip = false → c.c = d.c → c.p = d.p) (fn : MathFns K) (dt : K)
    (c : Coupling z) (hcs : c ∈ cs) (hx : CtxLoc cs A B B N x x') :
    Both (CtxLoc cs A B B N) (lawCoupling fn sv.laws dt x c) (lawCoupling fn sv.laws dt x' c) := by
  unfold lawCoupling
  by_cases hk : c.skip = true
  · rw [if_pos hk, if_pos hk]; exact .ok hx
  · rw [if_neg hk, if_neg hk]
    have hk' : c.skip = false := by simpa using hk
    have hb := hx.same.bodies c.p
    generalize x.world.bodies c.p = b at hb ⊢
    generalize x'.world.bodies c.p = b' at hb ⊢
    cases b with
    | rigid r => exact .errL
    | deformable s =>
      cases b' with
      | rigid r => exact .errR
      | deformable s' =>
        simp only
        have key := fun q hq => libLaw_local (hlib c.c) (Body.deformable.inj (hb q hq)) (hx.same.laws c hcs hk' q hq) dt
        cases hr : (sv.laws c.c).update s (x.mech.laws c.c) dt with
        | error e => exact .errL
        | ok r =>
          cases hr' : (sv.laws c.c).update s' (x'.mech.laws c.c) dt with
          | error e => exact .errR
          | ok r' =>
            rw [hr, hr'] at key
            have key := fun q hq => key q hq r r' rfl rfl
            have h1 := hx.setBody c.p (b := .deformable (removeShear fn (sv.laws c.c).requiresFReset r.1))
              (b' := .deformable (removeShear fn (sv.laws c.c).requiresFReset r'.1))
              fun q hq => congrArg Body.deformable (removeShear_local fn _ (key q hq).1)
            refine .ok ⟨⟨h1.same.sdfs, h1.same.forces, h1.same.bodies, fun d hd hdk q hq => ?_, h1.same.affine⟩, h1.inter, h1.nodes,
              h1.grids, h1.geoms⟩
            show lawEntry q (Function.update x.mech.laws c.c r.2 d.c) = lawEntry q (Function.update x'.mech.laws c.c r'.2 d.c)
            by_cases hdc : d.c = c.c
            · rw [hdc, Function.update_self, Function.update_self]
              have hdp := hsep d hd c hcs hdk hk' hdc
              have : ∀ (p : Fin z.P) (e : d.p = p) (h : (q : ℕ) < z.np p), B p ⟨q, h⟩ := by
                intro p e h; subst e; exact hq
              have hq' : (q : ℕ) < z.np c.p := hdp ▸ q.isLt
              exact (key ⟨q, hq'⟩ (this c.p hdp hq')).2
            · rw [Function.update_of_ne hdc, Function.update_of_ne hdc]
              exact hx.same.laws d hd hdk q hq

/-! ### The start of the step -/

/-- Stored lists come from the list of couplings, with the kernel of one of them. -/
theorem connectivity_local (sv : Solver z K dim SS (LawState K) (ForceState K dim)) (w w' : World z K dim SS) (p : Fin z.P) (g : Fin z.G) :
    (computeConnectivity sv w p g = none ∧ computeConnectivity sv w' p g = none) ∨
    ∃ c ∈ sv.couplings, c.p = p ∧ c.g = g ∧
      computeConnectivity sv w p g = some ⟨c.ker, compute c.ker (sv.domains g) (w.bodies p).position⟩ ∧
      computeConnectivity sv w' p g = some ⟨c.ker, compute c.ker (sv.domains g) (w'.bodies p).position⟩ := by
  unfold computeConnectivity
  have key : ∀ (l : List (Coupling z)) (d d' : Inter z K dim), l ⊆ sv.couplings →
      (∀ p g, (d p g = none ∧ d' p g = none) ∨ ∃ c ∈ sv.couplings, c.p = p ∧ c.g = g ∧
        d p g = some ⟨c.ker, compute c.ker (sv.domains g) (w.bodies p).position⟩ ∧
        d' p g = some ⟨c.ker, compute c.ker (sv.domains g) (w'.bodies p).position⟩) →
      ∀ p g, (l.foldl (connStep sv w) d p g = none ∧ l.foldl (connStep sv w') d' p g = none) ∨ ∃ c ∈ sv.couplings, c.p = p ∧ c.g = g ∧
        l.foldl (connStep sv w) d p g = some ⟨c.ker, compute c.ker (sv.domains g) (w.bodies p).position⟩ ∧
        l.foldl (connStep sv w') d' p g = some ⟨c.ker, compute c.ker (sv.domains g) (w'.bodies p).position⟩ := by
    intro l
    induction l with
    | nil => intro d d' _ h; exact h
    | cons c l ih =>
      intro d d' hl h
      refine ih _ _ (fun x hx => hl (List.mem_cons_of_mem _ hx)) fun p g => ?_
      unfold connStep Inter.set
      by_cases hp : p = c.p
      · subst hp
        rw [Function.update_self, Function.update_self]
        by_cases hg : g = c.g
        · subst hg
          rw [Function.update_self, Function.update_self]
          exact .inr ⟨c, hl List.mem_cons_self, rfl, rfl, rfl, rfl⟩
        · rw [Function.update_of_ne hg, Function.update_of_ne hg]; exact h _ _
      · rw [Function.update_of_ne hp, Function.update_of_ne hp]; exact h _ _
  exact key _ _ _ (fun _ h => h) (fun _ _ => .inl ⟨rfl, rfl⟩) p g

/-- Slots with weight or gradient are nodes of the grid. -/
theorem slot_valid {n : ℕ} (ker : Kernel) (g : GridDomain K dim) (pos : Fin n → Fin dim → K) (i)
    (hi : (compute ker g pos).shapeVal i ≠ 0 ∨ (compute ker g pos).shapeGrad i ≠ fun _ => 0) :
    isValid g.gridSize (nodeIdx ker g (pos i.divNat) i.modNat.val) := by
  by_contra hv
  rcases hi with hi | hi
  · exact hi (if_neg hv)
  · exact hi (if_neg hv)

theorem reset_local {w w' : World z K dim SS} (h : ∀ p q, D p q → bodyPoint q (w.bodies p) = bodyPoint q (w'.bodies p)) (p q)
    (hq : D p q) : bodyPoint q ((resetMaterialPoints sv w).bodies p) = bodyPoint q ((resetMaterialPoints sv w').bodies p) := by
  have hb := h p q hq
  simp only [resetMaterialPoints]
  split_ifs
  · generalize w.bodies p = b at hb ⊢
    generalize w'.bodies p = b' at hb ⊢
    cases b with
    | rigid r =>
      cases b' with
      | rigid r' => exact hb
      | deformable s' => cases hb
    | deformable s =>
      cases b' with
      | rigid r' => cases hb
      | deformable s' =>
        obtain ⟨p1, p2, p3, p4, p5, p6, p7, p8, p9, p10, p11⟩ := pointOf_eq (Body.deformable.inj hb)
        simp only [bodyPoint, resetBody, pointOf, p1, p2, p4, p5, p6, p8, p9, p10, p11]
  · exact hb

theorem reset_position (w : World z K dim SS) (p : Fin z.P) : ((resetMaterialPoints sv w).bodies p).position = (w.bodies p).position := by
  simp only [resetMaterialPoints]
  split_ifs
  · cases w.bodies p <;> rfl
  · rfl

theorem Both.of_ok {α β : Type*} {R : α → β → Prop} {x : Except PyErr α} {y : Except PyErr β} (h : Both R x y) {a b}
    (ha : x = .ok a) (hb : y = .ok b) : R a b := h a b ha hb

/-- One call, whatever the transfer, given that the stages keep the relation. -/
theorem call_local {cs : List (Coupling z)} (hcs : cs = sv.couplings) (hlibf : ∀ f ∈ sv.forces, LibForce f) (hlib : ∀ c, LibLaw (sv.laws c))
    (hsep : ∀ c ∈ cs, ∀ d ∈ cs, c.skip = false → d.skip = false → c.c = d.c → c.p = d.p)
    (hAB : ∀ p q, B p q → A p q) (fn : MathFns K)
    {p2g g2p : Ctx z K dim SS (LawState K) (ForceState K dim) → K → K → Except PyErr (Ctx z K dim SS (LawState K) (ForceState K dim))}
    (hp2g : ∀ x x', CtxLoc cs A B A N x x' → ∀ dt t, Both (CtxLoc cs A B A N) (p2g x dt t) (p2g x' dt t))
    (hg2p : ∀ x x', CtxLoc cs A B B N x x' → ∀ dt t, Both (CtxLoc cs A B B N) (g2p x dt t) (g2p x' dt t))
    {st st' : SimState z K dim SS (LawState K) (ForceState K dim)} (hdt : st.dt = st'.dt) (ht : st.time = st'.time)
    (hs : SameOn cs A st.world st'.world st.mech st'.mech)
    (hN : ∀ g j, N g j ↔ ∀ c ∈ cs, c.g = g → ∀ q, ¬ A c.p q →
      (∀ i, (compute c.ker (sv.domains g) (st.world.bodies c.p).position).pointId i = q →
        (compute c.ker (sv.domains g) (st.world.bodies c.p).position).nodeHash i = j →
        (compute c.ker (sv.domains g) (st.world.bodies c.p).position).shapeVal i = 0 ∧
        (compute c.ker (sv.domains g) (st.world.bodies c.p).position).shapeGrad i = fun _ => 0) ∧
      (∀ i, (compute c.ker (sv.domains g) (st'.world.bodies c.p).position).pointId i = q →
        (compute c.ker (sv.domains g) (st'.world.bodies c.p).position).nodeHash i = j →
        (compute c.ker (sv.domains g) (st'.world.bodies c.p).position).shapeVal i = 0 ∧
        (compute c.ker (sv.domains g) (st'.world.bodies c.p).position).shapeGrad i = fun _ => 0))
    (hB : ∀ c ∈ cs, ∀ q, B c.p q → NodesIn (N c.g) (compute c.ker (sv.domains c.g) (st.world.bodies c.p).position) q) :
    Both (fun r r' => SameOn cs B r.world r'.world r.mech r'.mech ∧ r.dt = r'.dt ∧ r.time = r'.time)
      (callWith fn sv p2g g2p st) (callWith fn sv p2g g2p st') := by
  subst hcs
  intro r r' hr hr'
  unfold callWith at hr hr'
  obtain ⟨wm, h1, hr⟩ := andThen_ok.mp hr
  obtain ⟨wm', h1', hr'⟩ := andThen_ok.mp hr'
  obtain ⟨k1, k2, k3⟩ := kinematicUpdate_lib hlibf _ _ _ _ _ h1
  obtain ⟨k1', k2', k3'⟩ := kinematicUpdate_lib hlibf _ _ _ _ _ h1'
  obtain ⟨w, m⟩ := wm
  obtain ⟨w', m'⟩ := wm'
  simp only at k1 k2 k3 k1' k2' k3' hr hr'
  subst k2 k2'
  have e1 : (resetMaterialPoints sv w).sdfs = (resetMaterialPoints sv w').sdfs := by
    show w.sdfs = w'.sdfs
    rw [k3, k3', hs.sdfs, hdt]
  have pos : ∀ p, ((resetMaterialPoints sv w).bodies p).position = (st.world.bodies p).position := fun p => by
    rw [reset_position, k1]
  have pos' : ∀ p, ((resetMaterialPoints sv w').bodies p).position = (st'.world.bodies p).position := fun p => by
    rw [reset_position, k1']
  have h0 : CtxLoc sv.couplings A B A N
      ⟨resetMaterialPoints sv w, st.mech, buildCache fn sv (resetMaterialPoints sv w) st.dt⟩
      ⟨resetMaterialPoints sv w', st'.mech, buildCache fn sv (resetMaterialPoints sv w') st'.dt⟩ := by
    refine ⟨⟨e1, hs.forces, ?_, hs.laws, hs.affine⟩, ?_, ?_, ?_, ?_⟩
    · exact reset_local (D := A) (fun p q hq => by rw [k1, k1']; exact hs.bodies p q hq)
    · intro p g
      simp only [buildCache_interactions]
      rcases connectivity_local sv (resetMaterialPoints sv w) (resetMaterialPoints sv w') p g with ⟨h, h'⟩ | ⟨c, hc, hp, hg, h, h'⟩
      · rw [h, h']; exact .none
      · rw [h, h']
        subst hp hg
        refine .some c.ker ⟨fun _ => rfl, fun _ => rfl, fun _ => rfl, fun i hi => ?_, fun i hi hNi => ?_, fun i hi hNi => ?_⟩
        · have e : ((resetMaterialPoints sv w').bodies c.p).position i.divNat = ((resetMaterialPoints sv w).bodies c.p).position i.divNat := by
            rw [pos, pos']
            exact (bodyPoint_position (hs.bodies c.p _ hi)).symm
          simp only [InteractionCache.row, compute, e]
        · rw [pos] at hNi ⊢
          exact ((hN _ _).mp hNi c hc rfl _ hi).1 i rfl rfl
        · rw [pos'] at hNi ⊢
          exact ((hN _ _).mp hNi c hc rfl _ hi).2 i rfl rfl
    · intro p q hq g ker c h
      simp only [buildCache_interactions] at h
      rcases connectivity_local sv (resetMaterialPoints sv w) (resetMaterialPoints sv w') p g with ⟨h', -⟩ | ⟨d, hd, hp, hg, h', -⟩
      · rw [h'] at h; cases h
      · rw [h'] at h
        subst hp hg
        cases h
        rw [pos]
        exact hB d hd q hq
    · intro g j _; exact ⟨rfl, rfl, rfl, rfl⟩
    · intro g d
      simp only [buildCache, sdfGeom]
      rw [e1, hdt]
  obtain ⟨x1, h2, hr⟩ := andThen_ok.mp hr
  obtain ⟨x1', h2', hr'⟩ := andThen_ok.mp hr'
  obtain ⟨x2, h3, hr⟩ := andThen_ok.mp hr
  obtain ⟨x2', h3', hr'⟩ := andThen_ok.mp hr'
  obtain ⟨x3, h4, hr⟩ := andThen_ok.mp hr
  obtain ⟨x3', h4', hr'⟩ := andThen_ok.mp hr'
  obtain ⟨x4, h5, hr⟩ := andThen_ok.mp hr
  obtain ⟨x4', h5', hr'⟩ := andThen_ok.mp hr'
  rw [← hdt, ← ht] at h2' h3' h4'
  rw [← hdt, ← ht] at h5'
  have c1 := hp2g _ _ (by rw [← hdt] at h0; exact h0) st.dt st.time _ _ h2 h2'
  have c2 := integrate_local hlibf st.dt st.time c1 _ _ h3 h3'
  have c2' : CtxLoc sv.couplings A B B N x2 x2' := ⟨c2.same.mono hAB, c2.inter, c2.nodes, c2.grids, c2.geoms⟩
  have c3 := hg2p _ _ c2' st.dt st.time _ _ h4 h4'
  have c4 : CtxLoc sv.couplings A B B N x4 x4' :=
    Both.foldE (R := CtxLoc sv.couplings A B B N) sv.couplings (fun c hc x x' hx => law_local hlib hsep fn st.dt c hc hx) c3 _ _ h5 h5'
  have := Except.ok.inj hr; subst this
  have := Except.ok.inj hr'; subst this
  exact ⟨c4.same, hdt, by simp only [hdt, ht]⟩

end
end Hydrax
