import Verif.Lemmas.LatTransfer

/-!
# One call of the solver under a symmetry of the lattice (helper lemmas)
-/

set_option linter.unusedSectionVars false

namespace Hydrax

open Spec

/-- Two results correspond: related values or the same exception. -/
inductive ExSym {α β : Type*} (R : α → β → Prop) : Except PyErr α → Except PyErr β → Prop
  | ok {a b} (h : R a b) : ExSym R (.ok a) (.ok b)
  | error (e) : ExSym R (.error e) (.error e)

theorem ExSym.andThen {α β γ δ : Type*} {R : α → β → Prop} {S : γ → δ → Prop} {x : Except PyErr α} {y : Except PyErr β}
    (h : ExSym R x y) {f : α → Except PyErr γ} {f' : β → Except PyErr δ} (hf : ∀ a b, R a b → ExSym S (f a) (f' b)) :
    ExSym S (Hydrax.andThen x f) (Hydrax.andThen y f') := by
  cases h with
  | ok h => exact hf _ _ h
  | error e => exact .error e

theorem ExSym.foldE2 {σ τ ι κ : Type*} {R : σ → τ → Prop} {Q : ι → κ → Prop} {f : σ → ι → Except PyErr σ}
    {f' : τ → κ → Except PyErr τ} (hf : ∀ a b i j, Q i j → R a b → ExSym R (f a i) (f' b j)) {l : List ι} {l' : List κ}
    (hl : List.Forall₂ Q l l') : ∀ {a : σ} {b : τ}, R a b → ExSym R (Hydrax.foldE f a l) (Hydrax.foldE f' b l') := by
  induction hl with
  | nil => intro a b h; exact .ok h
  | @cons i j l l' hij _ ih =>
    intro a b h
    have := hf a b i j hij h
    simp only [Hydrax.foldE]
    cases ha : f a i with
    | error e =>
      rw [ha] at this
      generalize hb : f' b j = y at this
      cases this
      exact .error _
    | ok a' =>
      rw [ha] at this
      generalize hb : f' b j = y at this
      cases this with
      | ok h' => exact ih h'

theorem ExSym.foldE_mem {σ τ ι : Type*} {R : σ → τ → Prop} {f : σ → ι → Except PyErr σ} {f' : τ → ι → Except PyErr τ}
    (l : List ι) (hf : ∀ i ∈ l, ∀ a b, R a b → ExSym R (f a i) (f' b i)) {a : σ} {b : τ} (h : R a b) :
    ExSym R (Hydrax.foldE f a l) (Hydrax.foldE f' b l) :=
  ExSym.foldE2 (Q := fun i j => i = j ∧ i ∈ l) (fun a b i j hij hab => by obtain ⟨rfl, hi⟩ := hij; exact hf i hi a b hab)
    (List.forall₂_same.mpr fun _ hi => ⟨rfl, hi⟩) h

theorem ExSym.foldE {σ τ ι : Type*} {R : σ → τ → Prop} {f : σ → ι → Except PyErr σ} {f' : τ → ι → Except PyErr τ}
    (hf : ∀ a b i, R a b → ExSym R (f a i) (f' b i)) (l : List ι) {a : σ} {b : τ} (h : R a b) :
    ExSym R (Hydrax.foldE f a l) (Hydrax.foldE f' b l) :=
  ExSym.foldE2 (Q := Eq) (fun a b i j hij hab => by subst hij; exact hf a b i hab)
    (List.forall₂_same.mpr fun _ _ => rfl) h

section
variable {z : Sz} {K : Type*} [Field K] [LinearOrder K] [IsStrictOrderedRing K] [FloorRing K] {dim : ℕ}
  {SS LS FS : Type*}

/-- A symmetry of a scene: one of the lattice and a renumbering of the points of each body, with their action on the states of
obstacles, laws and forces. -/
structure Spec.SceneSym (z : Sz) (K : Type*) (dim : ℕ) (SS LS FS : Type*) where
  T : LatSym K dim
  h : dim ≤ 3
  pts : (p : Fin z.P) → Equiv.Perm (Fin (z.np p))
  sdf : Fin z.D → SS → SS
  law : Fin z.C → LS → LS
  force : FS → FS
  solver : Fin z.S → (ℕ → Mat3 K) → ℕ → Mat3 K := fun _ B => B

variable (Y : SceneSym z K dim SS LS FS)

/-- Image of the world. -/
def Spec.SceneSym.world (Y : SceneSym z K dim SS LS FS) (w : World z K dim SS) : World z K dim SS :=
  { bodies := fun p => Y.T.body Y.h (Y.pts p) (w.bodies p), sdfs := fun i => Y.sdf i (w.sdfs i) }

/-- Image of the states of laws, forces and solvers (the USL solver keeps no state of its own). -/
def Spec.SceneSym.mech (Y : SceneSym z K dim SS LS FS) (m : Mech z K LS FS) : Mech z K LS FS :=
  { laws := fun c => Y.law c (m.laws c), solvers := fun i => Y.solver i (m.solvers i)
    forces := m.forces.map Y.force }

/-- Image of the simulation state. -/
def Spec.SceneSym.state (Y : SceneSym z K dim SS LS FS) (st : SimState z K dim SS LS FS) : SimState z K dim SS LS FS :=
  { st with world := Y.world st.world, mech := Y.mech st.mech }

/-- The obstacle `f'` with the image of a state is the image of the obstacle `f`. -/
structure Spec.LatSym.SdfSym (T : LatSym K dim) (τ : SS → SS) (f f' : SdfLogic K dim SS) : Prop where
  kin : ∀ s dt, f'.updateKin (τ s) dt = τ (f.updateKin s dt)
  dist : ∀ s x, f'.dist (τ s) (T.point x) = f.dist s x
  normal : ∀ s x, f'.normal (τ s) (T.point x) = T.vec (f.normal s x)
  velocity : ∀ s x dt, f'.velocity (τ s) (T.point x) dt = T.vec (f.velocity s x dt)
  friction : ∀ s x, f'.friction (τ s) (T.point x) = f.friction s x

/-- The law prefers neither a direction nor a point. -/
structure Spec.LatSym.LawSym (T : LatSym K dim) (h : dim ≤ 3) {n : ℕ} (π : Equiv.Perm (Fin n)) (τ : LS → LS)
    (f f' : Law K dim LS) : Prop where
  reset : f'.requiresFReset = f.requiresFReset
  update : ∀ (s : MPState K dim n) (ls : LS) (dt : K),
    f'.update (T.mp h π s) (τ ls) dt = (f.update s ls dt).map fun r => (T.mp h π r.1, τ r.2)

/-- Entries of the dictionary of interaction lists correspond. -/
inductive LatSym.InterSym (T : LatSym K dim) (h : dim ≤ 3) {n : ℕ} (π : Equiv.Perm (Fin n)) (size : Fin dim → ℕ) :
    Option (Σ ker : Kernel, InteractionCache K n (windowSize ker dim)) →
    Option (Σ ker : Kernel, InteractionCache K n (windowSize ker dim)) → Prop
  | none : InterSym T h π size none none
  | some (ker) {c c'} (hc : LatSym.ListSym T h π size c c') : InterSym T h π size (some ⟨ker, c⟩) (some ⟨ker, c'⟩)

/-- Geometry data correspond at corresponding query points. -/
structure LatSym.GeomSym (T : LatSym K dim) {ι : Type*} (P : ι → Prop) (f : ι → ι) (a a' : Geom K dim ι) : Prop where
  dists : ∀ i, P i → a'.dists (f i) = a.dists i
  normals : ∀ i, P i → a'.normals (f i) = T.vec (a.normals i)
  wallVels : ∀ i, P i → a'.wallVels (f i) = T.vec (a.wallVels i)
  friction : ∀ i, P i → a'.friction (f i) = a.friction i

/-- Two intermediate states of a call correspond. -/
structure SceneSym.CtxSym (Y : SceneSym z K dim SS LS FS) (domains : Fin z.G → GridDomain K dim)
    (x x' : Ctx z K dim SS LS FS) : Prop where
  world : x'.world = Y.world x.world
  mech : x'.mech = Y.mech x.mech
  inter : ∀ p g, LatSym.InterSym Y.T Y.h (Y.pts p) (domains g).gridSize (x.cache.interactions p g) (x'.cache.interactions p g)
  grids : ∀ g, LatSym.GridSym Y.T (domains g).gridSize (x.cache.grids g) (x'.cache.grids g)
  mpGeoms : ∀ p d, LatSym.GeomSym Y.T (fun _ => True) (Y.pts p) (x.cache.mpGeoms p d) (x'.cache.mpGeoms p d)
  nodeGeoms : ∀ g d, LatSym.GeomSym Y.T (fun j => j < ∏ a, (domains g).gridSize a) (Y.T.row (domains g).gridSize)
    (x.cache.nodeGeoms g d) (x'.cache.nodeGeoms g d)

/-- The force `f'` is the image of the force `f`. -/
structure SceneSym.HookSym (Y : SceneSym z K dim SS LS FS) (domains : Fin z.G → GridDomain K dim)
    (f f' : ForceHooks z K dim SS LS FS) : Prop where
  kin : ∀ w m dt t, f'.kinematics (Y.world w) (Y.mech m) dt t
    = (f.kinematics w m dt t).map fun r => (Y.world r.1, Y.mech r.2)
  pre : ∀ x x' dt t, SceneSym.CtxSym Y domains x x' → ExSym (SceneSym.CtxSym Y domains) (f.preP2g x dt t) (f'.preP2g x' dt t)
  forces : ∀ x x' dt t, SceneSym.CtxSym Y domains x x' →
    ExSym (SceneSym.CtxSym Y domains) (f.gridForces x dt t) (f'.gridForces x' dt t)
  moments : ∀ x x' dt t, SceneSym.CtxSym Y domains x x' →
    ExSym (SceneSym.CtxSym Y domains) (f.gridMoments x dt t) (f'.gridMoments x' dt t)

/-- The solver `sv'` is set up on the image of the scene of `sv`. -/
structure SceneSym.SolverSym (Y : SceneSym z K dim SS LS FS) (sv sv' : Solver z K dim SS LS FS) : Prop where
  hdim : dim = 2 ∨ dim = 3
  alpha : sv'.alpha = sv.alpha
  domains : ∀ g, Y.T.Maps (sv.domains g) (sv'.domains g)
  couplings : sv'.couplings = sv.couplings
  laws : ∀ c ∈ sv.couplings, Y.T.LawSym Y.h (Y.pts c.p) (Y.law c.c) (sv.laws c.c) (sv'.laws c.c)
  forces : List.Forall₂ (SceneSym.HookSym Y sv.domains) sv.forces sv'.forces
  sdfs : ∀ d, Y.T.SdfSym (Y.sdf d) (sv.sdfs d) (sv'.sdfs d)

variable {Y} {sv sv' : Solver z K dim SS LS FS}

theorem SceneSym.setBody (w : World z K dim SS) (p : Fin z.P) (b : Body K dim (z.np p)) :
    (Y.world w).setBody p (Y.T.body Y.h (Y.pts p) b) = Y.world (w.setBody p b) := by
  unfold World.setBody Spec.SceneSym.world
  congr 1
  funext q
  by_cases hq : q = p
  · subst hq; simp
  · simp [Function.update_of_ne hq]

theorem SceneSym.kin_sym (hs : SceneSym.SolverSym Y sv sv') (w : World z K dim SS) (m : Mech z K LS FS) (dt t : K) :
    ExSym (fun r r' => r' = (Y.world r.1, Y.mech r.2)) (kinematicUpdate sv w m dt t)
      (kinematicUpdate sv' (Y.world w) (Y.mech m) dt t) := by
  unfold kinematicUpdate
  refine ExSym.andThen (R := fun r r' => r' = (Y.world r.1, Y.mech r.2)) ?_ ?_
  · refine ExSym.foldE2 (Q := SceneSym.HookSym Y sv.domains) ?_ hs.forces rfl
    rintro a b f f' hf rfl
    rw [hf.kin]
    cases f.kinematics a.1 a.2 dt t with
    | error e => exact .error e
    | ok r => exact .ok rfl
  · rintro a b rfl
    refine .ok ?_
    simp only [Spec.SceneSym.world]
    refine Prod.ext ?_ rfl
    simp only [World.mk.injEq, true_and]
    funext i
    exact (hs.sdfs i).kin _ _

theorem SceneSym.reset_sym (hs : SceneSym.SolverSym Y sv sv') (w : World z K dim SS) :
    resetMaterialPoints sv' (Y.world w) = Y.world (resetMaterialPoints sv w) := by
  unfold resetMaterialPoints Spec.SceneSym.world
  rw [hs.couplings]
  simp only [World.mk.injEq, and_true]
  funext p
  split_ifs
  · cases w.bodies p with
    | rigid r => rfl
    | deformable s =>
      show Body.deformable _ = Body.deformable _
      congr 1
      unfold resetBody Spec.LatSym.mp
      simp only [MPState.mk.injEq, true_and, and_true]
      refine ⟨?_, ?_⟩
      · funext q; exact (LatSym.vec_zero Y.T).symm
      · funext q; exact rotated_zero.symm
  · rfl

/-- Dictionaries of interaction lists correspond. -/
def SceneSym.DictSym (Y : SceneSym z K dim SS LS FS) (domains : Fin z.G → GridDomain K dim) (d d' : Inter z K dim) : Prop :=
  ∀ p g, LatSym.InterSym Y.T Y.h (Y.pts p) (domains g).gridSize (d p g) (d' p g)

theorem SceneSym.DictSym.set {domains : Fin z.G → GridDomain K dim} {d d' : Inter z K dim}
    (hd : SceneSym.DictSym Y domains d d') (p : Fin z.P) (g : Fin z.G)
    {v v' : Option (Σ ker : Kernel, InteractionCache K (z.np p) (windowSize ker dim))}
    (hv : LatSym.InterSym Y.T Y.h (Y.pts p) (domains g).gridSize v v') :
    SceneSym.DictSym Y domains (d.set p g v) (d'.set p g v') := by
  intro q k
  unfold Inter.set
  by_cases hq : q = p
  · subst hq
    simp only [Function.update_self]
    by_cases hk : k = g
    · subst hk; simpa using hv
    · simpa [Function.update_of_ne hk] using hd q k
  · simpa [Function.update_of_ne hq] using hd q k

theorem SceneSym.conn_sym (hs : SceneSym.SolverSym Y sv sv') (w : World z K dim SS) :
    SceneSym.DictSym Y sv.domains (computeConnectivity sv w) (computeConnectivity sv' (Y.world w)) := by
  unfold computeConnectivity
  rw [hs.couplings]
  have key : ∀ (l : List (Coupling z)) (d d' : Inter z K dim), SceneSym.DictSym Y sv.domains d d' →
      SceneSym.DictSym Y sv.domains (l.foldl (connStep sv w) d) (l.foldl (connStep sv' (Y.world w)) d') := by
    intro l
    induction l with
    | nil => intro d d' h; exact h
    | cons c l ih =>
      intro d d' h
      refine ih _ _ (h.set c.p c.g ?_)
      refine .some c.ker ?_
      have := LatSym.compute_sym Y.T (h := Y.h) hs.hdim c.ker (hs.domains c.g) (Y.pts c.p) (w.bodies c.p).position
      rw [← LatSym.body_position Y.T Y.h] at this
      exact this
  exact key _ _ _ fun _ _ => .none

theorem SceneSym.corr_sym (hs : SceneSym.SolverSym Y sv sv') {d d' : Inter z K dim} (hd : SceneSym.DictSym Y sv.domains d d')
    (m m' : (p : Fin z.P) → (g : Fin z.G) → ℕ → K) :
    SceneSym.DictSym Y sv.domains (sdfCorrection sv d m) (sdfCorrection sv' d' m') := by
  unfold sdfCorrection
  rw [hs.couplings]
  split_ifs
  · exact hd
  · have key : ∀ (l : List (Coupling z)) (d d' : Inter z K dim), SceneSym.DictSym Y sv.domains d d' →
        SceneSym.DictSym Y sv.domains (l.foldl (maskStep m) d) (l.foldl (maskStep m') d') := by
      intro l
      induction l with
      | nil => intro d d' h; exact h
      | cons c l ih =>
        intro d d' h
        refine ih _ _ (h.set c.p c.g ?_)
        have := h c.p c.g
        generalize d c.p c.g = a at this ⊢
        generalize d' c.p c.g = b at this ⊢
        cases this with
        | none => exact .none
        | some ker hc => exact .some ker ⟨fun _ => rfl, fun _ => rfl, hc.lt, hc.sum⟩
    exact key _ _ _ hd

theorem LatSym.position_map (T : LatSym K dim) {g g' : GridDomain K dim} (hg : T.Maps g g') {j : ℕ}
    (hj : j < ∏ d, g.gridSize d) : g'.positionStack (T.row g.gridSize j) = T.point (g.positionStack j) := by
  apply LatSym.vec_ext T
  intro d
  have hlt := unravel_lt dim g.gridSize j hj
  unfold GridDomain.positionStack Spec.LatSym.row
  rw [hg.size, unravel_ravel dim _ _ (fun a => LatSym.node_lt T hlt a), LatSym.node_perm, hg.origin, hg.cell]
  simp only [Spec.LatSym.point, LatSym.vec_perm]
  have := hlt d
  unfold Spec.LatSym.axis Spec.LatSym.sg
  split_ifs
  · have e : ((g.gridSize d - 1 - unravel dim g.gridSize j d : ℕ) : K) = (g.gridSize d : K) - 1 - (unravel dim g.gridSize j d : K) := by
      rw [Nat.cast_sub (by omega), Nat.cast_sub (by omega)]; simp
    rw [e]; ring
  · ring

theorem SceneSym.cache_sym (hs : SceneSym.SolverSym Y sv sv') (fn : MathFns K) (w : World z K dim SS) (m : Mech z K LS FS)
    (dt : K) : SceneSym.CtxSym Y sv.domains ⟨w, m, buildCache fn sv w dt⟩ ⟨Y.world w, Y.mech m, buildCache fn sv' (Y.world w) dt⟩ where
  world := rfl
  mech := rfl
  inter := SceneSym.corr_sym hs (SceneSym.conn_sym hs w) _ _
  grids g := by
    refine ⟨fun _ _ => rfl, fun _ _ => ?_, fun _ _ => ?_, fun _ _ => ?_⟩ <;> exact (LatSym.vec_zero Y.T).symm
  mpGeoms p d := by
    have e : ((Y.world w).bodies p).position = fun q => Y.T.point ((w.bodies p).position ((Y.pts p).symm q)) := LatSym.body_position Y.T Y.h _ _
    have hd := hs.sdfs d
    refine ⟨fun q _ => ?_, fun q _ => ?_, fun q _ => ?_, fun q _ => ?_⟩ <;> simp only [buildCache, sdfGeom, e, Equiv.symm_apply_apply]
    · exact congrArg (· - (0 : K)) (hd.dist _ _)
    · exact hd.normal _ _
    · exact hd.velocity _ _ _
    · exact hd.friction _ _
  nodeGeoms g d := by
    have hd := hs.sdfs d
    refine ⟨fun q hq => ?_, fun q hq => ?_, fun q hq => ?_, fun q hq => ?_⟩ <;>
      simp only [buildCache, sdfGeom, LatSym.position_map Y.T (hs.domains g) hq, (hs.domains g).cell]
    · exact congrArg (· - (sv.domains g).cellSize * 1) (hd.dist _ _)
    · exact hd.normal _ _
    · exact hd.velocity _ _ _
    · exact hd.friction _ _

theorem SceneSym.CtxSym.setGrid {domains : Fin z.G → GridDomain K dim} {x x' : Ctx z K dim SS LS FS}
    (hx : SceneSym.CtxSym Y domains x x') (g : Fin z.G) {a a' : GridArrays K dim}
    (ha : LatSym.GridSym Y.T (domains g).gridSize a a') : SceneSym.CtxSym Y domains (x.setGrid g a) (x'.setGrid g a') where
  world := hx.world
  mech := hx.mech
  inter := hx.inter
  grids k := by
    unfold Ctx.setGrid
    by_cases hk : k = g
    · subst hk; simpa using ha
    · simpa [Function.update_of_ne hk] using hx.grids k
  mpGeoms := hx.mpGeoms
  nodeGeoms := hx.nodeGeoms

theorem SceneSym.CtxSym.setBody {domains : Fin z.G → GridDomain K dim} {x x' : Ctx z K dim SS LS FS}
    (hx : SceneSym.CtxSym Y domains x x') (p : Fin z.P) (b : Body K dim (z.np p)) :
    SceneSym.CtxSym Y domains (x.setBody p b) (x'.setBody p (Y.T.body Y.h (Y.pts p) b)) where
  world := by
    unfold Ctx.setBody
    simp only [hx.world, SceneSym.setBody]
  mech := hx.mech
  inter := hx.inter
  grids := hx.grids
  mpGeoms := hx.mpGeoms
  nodeGeoms := hx.nodeGeoms

theorem SceneSym.CtxSym.body {domains : Fin z.G → GridDomain K dim} {x x' : Ctx z K dim SS LS FS}
    (hx : SceneSym.CtxSym Y domains x x') (p : Fin z.P) : x'.world.bodies p = Y.T.body Y.h (Y.pts p) (x.world.bodies p) := by
  rw [hx.world]; rfl

theorem SceneSym.hook_sym (hs : SceneSym.SolverSym Y sv sv')
    (hook : ForceHooks z K dim SS LS FS → Ctx z K dim SS LS FS → K → K → Except PyErr (Ctx z K dim SS LS FS)) {dt t : K}
    (hh : ∀ f f', SceneSym.HookSym Y sv.domains f f' → ∀ x x', SceneSym.CtxSym Y sv.domains x x' →
      ExSym (SceneSym.CtxSym Y sv.domains) (hook f x dt t) (hook f' x' dt t)) {x x' : Ctx z K dim SS LS FS}
    (hx : SceneSym.CtxSym Y sv.domains x x') :
    ExSym (SceneSym.CtxSym Y sv.domains) (runHook hook sv.forces x dt t) (runHook hook sv'.forces x' dt t) :=
  ExSym.foldE2 (fun a b f f' hf hab => hh f f' hf a b hab) hs.forces hx

theorem SceneSym.p2gCoupling_sym {domains : Fin z.G → GridDomain K dim} (c : Coupling z) {x x' : Ctx z K dim SS LS FS}
    (hx : SceneSym.CtxSym Y domains x x') : ExSym (SceneSym.CtxSym Y domains) (p2gCoupling x c) (p2gCoupling x' c) := by
  unfold p2gCoupling
  split_ifs
  · exact .ok hx
  · have hi := hx.inter c.p c.g
    have hb := hx.body c.p
    rw [hb]
    generalize x.cache.interactions c.p c.g = a at hi ⊢
    generalize x'.cache.interactions c.p c.g = b at hi ⊢
    cases hi with
    | none => exact .error _
    | some ker hc =>
      cases x.world.bodies c.p with
      | rigid r => exact .error _
      | deformable s =>
        simp only [Spec.LatSym.body]
        have ev : (Y.T.mp Y.h (Y.pts c.p) s).volScalar = s.volScalar := rfl
        rw [ev]
        split_ifs
        · exact .error _
        · exact .ok (hx.setGrid c.g (LatSym.p2g_sym Y.T hc s (hx.grids c.g)))

theorem SceneSym.p2g_sym (hs : SceneSym.SolverSym Y sv sv') (dt t : K) {x x' : Ctx z K dim SS LS FS}
    (hx : SceneSym.CtxSym Y sv.domains x x') : ExSym (SceneSym.CtxSym Y sv.domains) (uslP2g sv x dt t) (uslP2g sv' x' dt t) := by
  unfold uslP2g
  rw [hs.couplings]
  refine ExSym.andThen (SceneSym.hook_sym hs _ (fun f f' hf x x' hx => hf.pre x x' dt t hx) hx) ?_
  intro a b hab
  exact ExSym.foldE (fun a b c hab => SceneSym.p2gCoupling_sym c hab) _ hab

theorem SceneSym.integrate_sym (hs : SceneSym.SolverSym Y sv sv') (dt t : K) {x x' : Ctx z K dim SS LS FS}
    (hx : SceneSym.CtxSym Y sv.domains x x') :
    ExSym (SceneSym.CtxSym Y sv.domains) (integrateGrid sv x dt t) (integrateGrid sv' x' dt t) := by
  unfold integrateGrid
  rw [hs.couplings]
  refine ExSym.andThen (SceneSym.hook_sym hs _ (fun f f' hf x x' hx => hf.forces x x' dt t hx) hx) ?_
  intro a b hab
  refine ExSym.andThen (ExSym.foldE (R := SceneSym.CtxSym Y sv.domains) ?_ _ hab) ?_
  · intro a b c hab
    unfold integrateCoupling
    split_ifs
    · exact .ok hab
    · exact .ok (hab.setGrid c.g (LatSym.integrate_sym Y.T dt (hab.grids c.g)))
  · intro a b hab
    exact SceneSym.hook_sym hs _ (fun f f' hf x x' hx => hf.moments x x' dt t hx) hab

theorem SceneSym.g2pCoupling_sym {domains : Fin z.G → GridDomain K dim} (alpha dt : K) (c : Coupling z)
    {x x' : Ctx z K dim SS LS FS} (hx : SceneSym.CtxSym Y domains x x') :
    ExSym (SceneSym.CtxSym Y domains) (g2pCoupling alpha dt x c) (g2pCoupling alpha dt x' c) := by
  unfold g2pCoupling
  have hi := hx.inter c.p c.g
  have hb := hx.body c.p
  rw [hb]
  split_ifs
  · exact .ok hx
  · generalize x.cache.interactions c.p c.g = a at hi ⊢
    generalize x'.cache.interactions c.p c.g = b at hi ⊢
    cases hi with
    | none => exact .error _
    | some ker hc =>
      cases x.world.bodies c.p with
      | rigid r => exact .error _
      | deformable s => exact .error _
  · generalize x.cache.interactions c.p c.g = a at hi ⊢
    generalize x'.cache.interactions c.p c.g = b at hi ⊢
    cases hi with
    | none => exact .error _
    | some ker hc =>
      cases x.world.bodies c.p with
      | rigid r => exact .error _
      | deformable s =>
        simp only [Spec.LatSym.body]
        rename_i ic ic'
        have := hx.setBody c.p (.deformable (g2pBody alpha dt ic (ghostVelocity x c.p s) (x.cache.grids c.g) s))
        refine .ok ?_
        rw [LatSym.g2p_sym Y.T hc alpha dt (ghostVelocity x c.p s) _ s (hx.grids c.g)]
        exact this

theorem SceneSym.g2p_sym (hs : SceneSym.SolverSym Y sv sv') (dt t : K) {x x' : Ctx z K dim SS LS FS}
    (hx : SceneSym.CtxSym Y sv.domains x x') : ExSym (SceneSym.CtxSym Y sv.domains) (uslG2p sv x dt t) (uslG2p sv' x' dt t) := by
  unfold uslG2p
  rw [hs.couplings, hs.alpha]
  exact ExSym.foldE (fun a b c hab => SceneSym.g2pCoupling_sym _ _ c hab) _ hx

theorem LatSym.cbar_rot (T : LatSym K dim) (h : dim ≤ 3) (fn : MathFns K) (F : Mat3 K) :
    cbar fn dim (rotated (T.mat h) F) = rotated (T.mat h) (cbar fn dim F) := by
  have orth := LatSym.mat_orth T h
  unfold cbar
  rw [det_rotated orth]
  split_ifs with h2
  · have e : Matrix.diagonal ![fn.sqrt F.det, fn.sqrt F.det, 0] = set22 (fn.sqrt F.det • (1 : Mat3 K)) 0 := by
      ext i j
      fin_cases i <;> fin_cases j <;> simp [set22, Matrix.diagonal]
    rw [e, ← LatSym.set22_rot T h h2, rotated_smul, rotated_one orth]
  · rw [rotated_smul, rotated_one orth]

theorem LatSym.removeShear_rot (T : LatSym K dim) (h : dim ≤ 3) (fn : MathFns K) (reset : Bool) {n : ℕ}
    (π : Equiv.Perm (Fin n)) (s : MPState K dim n) : removeShear fn reset (T.mp h π s) = T.mp h π (removeShear fn reset s) := by
  unfold removeShear
  split_ifs
  · unfold Spec.LatSym.mp
    simp only [MPState.mk.injEq, true_and, and_true]
    refine ⟨?_, ?_⟩
    · funext p; exact LatSym.cbar_rot T h fn _
    · cases s.FStore <;> rfl
  · rfl

theorem SceneSym.law_sym (hs : SceneSym.SolverSym Y sv sv') (fn : MathFns K) (dt : K) (c : Coupling z)
    (hcm : c ∈ sv.couplings) {x x' : Ctx z K dim SS LS FS} (hx : SceneSym.CtxSym Y sv.domains x x') :
    ExSym (SceneSym.CtxSym Y sv.domains) (lawCoupling fn sv.laws dt x c) (lawCoupling fn sv'.laws dt x' c) := by
  unfold lawCoupling
  split_ifs
  · exact .ok hx
  · have hb := hx.body c.p
    rw [hb]
    cases x.world.bodies c.p with
    | rigid r => exact .error _
    | deformable s =>
      simp only [Spec.LatSym.body]
      have em : x'.mech.laws c.c = Y.law c.c (x.mech.laws c.c) := by rw [hx.mech]; rfl
      rw [em, (hs.laws c hcm).update, (hs.laws c hcm).reset]
      cases (sv.laws c.c).update s (x.mech.laws c.c) dt with
      | error e => exact .error e
      | ok r =>
        refine .ok ?_
        have h1 := hx.setBody c.p (.deformable (removeShear fn (sv.laws c.c).requiresFReset r.1))
        have h2 : removeShear fn (sv.laws c.c).requiresFReset (Y.T.mp Y.h (Y.pts c.p) r.1)
            = Y.T.mp Y.h (Y.pts c.p) (removeShear fn (sv.laws c.c).requiresFReset r.1) := LatSym.removeShear_rot Y.T Y.h fn _ _ r.1
        refine ⟨?_, ?_, h1.inter, h1.grids, h1.mpGeoms, h1.nodeGeoms⟩
        · have := h1.world
          simp only [Spec.LatSym.body] at this
          rw [← h2] at this
          exact this
        · simp only [hx.mech, Spec.SceneSym.mech, Mech.mk.injEq, and_true]
          funext k
          by_cases hk : k = c.c
          · subst hk; simp
          · simp [Function.update_of_ne hk]

theorem SceneSym.laws_sym (hs : SceneSym.SolverSym Y sv sv') (fn : MathFns K) (dt t : K) {x x' : Ctx z K dim SS LS FS}
    (hx : SceneSym.CtxSym Y sv.domains x x') :
    ExSym (SceneSym.CtxSym Y sv.domains) (constitutiveUpdate fn sv x dt t) (constitutiveUpdate fn sv' x' dt t) := by
  unfold constitutiveUpdate
  rw [hs.couplings]
  exact ExSym.foldE_mem _ (fun c hc a b hab => SceneSym.law_sym hs fn dt c hc hab) hx

theorem ExSym.map_eq {α β : Type*} {f : α → β} {x : Except PyErr α} {y : Except PyErr β}
    (h : ExSym (fun a b => b = f a) x y) : y = x.map f := by
  cases h with
  | ok h => rw [h]; rfl
  | error e => rfl

/-- One call on the image of a state gives the image of the result. -/
theorem SceneSym.call_sym (hs : SceneSym.SolverSym Y sv sv') (fn : MathFns K) (st : SimState z K dim SS LS FS) :
    uslCall fn sv' (Y.state st) = (uslCall fn sv st).map Y.state := by
  apply ExSym.map_eq
  unfold uslCall callWith
  refine ExSym.andThen (SceneSym.kin_sym hs st.world st.mech st.dt st.time) ?_
  rintro a b rfl
  simp only [SceneSym.reset_sym hs]
  refine ExSym.andThen (SceneSym.p2g_sym hs st.dt st.time (SceneSym.cache_sym hs fn _ a.2 st.dt)) ?_
  intro a b hab
  refine ExSym.andThen (SceneSym.integrate_sym hs st.dt st.time hab) ?_
  intro a b hab
  refine ExSym.andThen (SceneSym.g2p_sym hs st.dt st.time hab) ?_
  intro a b hab
  refine ExSym.andThen (SceneSym.laws_sym hs fn st.dt st.time hab) ?_
  intro a b hab
  refine .ok ?_
  unfold Spec.SceneSym.state
  simp only [hab.world, hab.mech]

end
end Hydrax
