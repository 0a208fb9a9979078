import Verif.Lemmas.LatScene
import Verif.Lemmas.SceneRel
import Verif.Props.Renumbering
import Verif.Model.LawTable

/-!
# Scenes with split material points (helper lemmas)
-/

set_option linter.unusedSectionVars false

namespace Hydrax

open Spec

namespace Spec

/-- How the `n` points of a body are split: part `j` of `m` belongs to point `of j` and has the share `share j` of it. -/
structure Parts (K : Type*) [Field K] [LinearOrder K] (n m : ℕ) where
  of : Fin m → Fin n
  share : Fin m → K
  pos : ∀ j, 0 < share j
  total : ∀ i, ∑ j with of j = i, share j = 1

section
variable {K : Type*} [Field K] [LinearOrder K] {dim n m : ℕ}

/-- The body whose points are split in parts at the same place: mass, volume and force are shared, everything else is the same. -/
def Parts.mp (S : Parts K n m) (s : MPState K dim n) : MPState K dim m :=
  { position := fun j => s.position (S.of j)
    velocity := fun j => s.velocity (S.of j)
    force := fun j a => S.share j * s.force (S.of j) a
    mass := fun j => S.share j * s.mass (S.of j)
    volume := fun j => S.share j * s.volume (S.of j)
    volume0 := fun j => S.share j * s.volume0 (S.of j)
    L := fun j => s.L (S.of j)
    stress := fun j => s.stress (S.of j)
    F := fun j => s.F (S.of j)
    FStore := s.FStore.map fun f j => f (S.of j)
    volScalar := s.volScalar }

/-- Splitting for both kinds of bodies. -/
def Parts.body (S : Parts K n m) : Body K dim n → Body K dim m
  | .deformable s => .deformable (S.mp s)
  | .rigid r => .rigid
    { position := fun j => r.position (S.of j), velocity := fun j => r.velocity (S.of j)
      mass := fun j => S.share j * r.mass (S.of j), normal := fun j => r.normal (S.of j) }

/-- Number of the point to which a part belongs; numbers beyond the parts stay beyond the points. -/
def Parts.num (S : Parts K n m) (i : ℕ) : ℕ := if h : i < m then S.of ⟨i, h⟩ else n + i

/-- The arrays of a law for the split points. -/
def Parts.lawState (S : Parts K n m) : LawState K → LawState K
  | .elastic r => .elastic fun i => r (S.num i)
  | .density r => .density fun i => r (S.num i)
  | .dp e a b => .dp (fun i => e (S.num i)) (fun i => a (S.num i)) fun i => b (S.num i)
  | .mcc pc r e => .mcc (fun i => pc (S.num i)) (r.map fun f i => f (S.num i)) fun i => e (S.num i)

end

/-- A splitting of the points of all bodies of a scene, with its action on the states of the laws and of the solvers. -/
structure SceneSplit (z : Sz) (K : Type*) [Field K] [LinearOrder K] (LS : Type*) where
  np : Fin z.P → ℕ
  parts : (p : Fin z.P) → Parts K (z.np p) (np p)
  many : ∀ p, z.np p ≠ 1
  law : Fin z.C → LS → LS
  solver : Fin z.S → (ℕ → Mat3 K) → ℕ → Mat3 K

section
variable {z : Sz} {K : Type*} [Field K] [LinearOrder K] {dim : ℕ} {SS LS FS : Type*}

/-- The sizes of the split scene. -/
abbrev SceneSplit.sz (S : SceneSplit z K LS) : Sz := { z with np := S.np }

def SceneSplit.coupling (S : SceneSplit z K LS) (c : Coupling z) : Coupling S.sz :=
  { ker := c.ker, p := c.p, g := c.g, c := c.c, s := c.s, skip := c.skip }

def SceneSplit.world (S : SceneSplit z K LS) (w : World z K dim SS) : World S.sz K dim SS :=
  { bodies := fun p => (S.parts p).body (w.bodies p), sdfs := w.sdfs }

def SceneSplit.mech (S : SceneSplit z K LS) (m : Mech z K LS FS) : Mech S.sz K LS FS :=
  { laws := fun c => S.law c (m.laws c), solvers := fun k => S.solver k (m.solvers k), forces := m.forces }

def SceneSplit.state (S : SceneSplit z K LS) (st : SimState z K dim SS LS FS) : SimState S.sz K dim SS LS FS :=
  { world := S.world st.world, mech := S.mech st.mech, time := st.time, step := st.step, dt := st.dt }

end
end Spec

section
variable {K : Type*} [Field K] [LinearOrder K] [IsStrictOrderedRing K] [FloorRing K] {dim n m : ℕ}

theorem Parts.exists_part (S : Parts K n m) (i : Fin n) : ∃ j, S.of j = i := by
  by_contra h
  push Not at h
  have := S.total i
  rw [Finset.filter_false_of_mem (fun j _ => h j)] at this
  simp at this

theorem Parts.one_iff (S : Parts K n m) (h : n ≠ 1) : m ≠ 1 := by
  rintro rfl
  apply h
  have : Function.Surjective S.of := fun i => Parts.exists_part S i
  have h1 := Fintype.card_le_of_surjective _ this
  have h2 : 0 < n := lt_of_le_of_lt (Nat.zero_le _) (S.of 0).isLt
  simp at h1
  omega

/-- Sums over parts are sums over points. -/
theorem Parts.sum (S : Parts K n m) (G : Fin n → K) : ∑ j, S.share j * G (S.of j) = ∑ i, G i := by
  rw [← Finset.sum_fiberwise Finset.univ S.of]
  refine Finset.sum_congr rfl fun i _ => ?_
  rw [Finset.sum_congr rfl (g := fun j => S.share j * G i) (fun j hj => by rw [(Finset.mem_filter.mp hj).2]), ← Finset.sum_mul,
    S.total, one_mul]

theorem scatterAdd_split (S : Parts K n m) (ker : Kernel) (g : GridDomain K dim)
    (pos : Fin n → Fin dim → K) (F : Fin n → Interaction K → K) (j : ℕ) :
    scatterAdd (compute ker g fun q => pos (S.of q)).nodeHash (fun i => S.share ((compute ker g fun q => pos (S.of q)).pointId i) *
        F (S.of ((compute ker g fun q => pos (S.of q)).pointId i))
        ⟨(compute ker g fun q => pos (S.of q)).nodeHash i, (compute ker g fun q => pos (S.of q)).shapeVal i,
         (compute ker g fun q => pos (S.of q)).shapeGrad i, (compute ker g fun q => pos (S.of q)).relDist i⟩) j
      = scatterAdd (compute ker g pos).nodeHash (fun i => F ((compute ker g pos).pointId i)
        ⟨(compute ker g pos).nodeHash i, (compute ker g pos).shapeVal i,
         (compute ker g pos).shapeGrad i, (compute ker g pos).relDist i⟩) j := by
  rw [scatterAdd_compute ker g pos F, scatterAdd_compute ker g (fun q => pos (S.of q)) (fun p I => S.share p * F (S.of p) I), ← Parts.sum S]
  refine Finset.sum_congr rfl fun q _ => ?_
  rw [Finset.mul_sum]
  refine Finset.sum_congr rfl fun s _ => ?_
  split_ifs
  · rfl
  · rw [mul_zero]

theorem pointSum_split (S : Parts K n m) (ker : Kernel) (g : GridDomain K dim)
    (pos : Fin n → Fin dim → K) (F : Fin n → Interaction K → K) (p : Fin m) :
    pointSum (compute ker g fun q => pos (S.of q)) (fun i => F (S.of ((compute ker g fun q => pos (S.of q)).pointId i))
        ⟨(compute ker g fun q => pos (S.of q)).nodeHash i, (compute ker g fun q => pos (S.of q)).shapeVal i,
         (compute ker g fun q => pos (S.of q)).shapeGrad i, (compute ker g fun q => pos (S.of q)).relDist i⟩) p
      = pointSum (compute ker g pos) (fun i => F ((compute ker g pos).pointId i)
        ⟨(compute ker g pos).nodeHash i, (compute ker g pos).shapeVal i,
         (compute ker g pos).shapeGrad i, (compute ker g pos).relDist i⟩) (S.of p) := by
  rw [pointSum_compute ker g pos F, pointSum_compute ker g (fun q => pos (S.of q)) (fun p I => F (S.of p) I)]

theorem p2g_split (S : Parts K n m) (ker : Kernel) (g : GridDomain K dim) (pos : Fin n → Fin dim → K)
    (s : MPState K dim n) (gr : GridArrays K dim) :
    p2gBody (compute ker g fun q => pos (S.of q)) (S.mp s) gr = p2gBody (compute ker g pos) s gr := by
  simp only [p2gBody, GridArrays.mk.injEq, true_and]
  refine ⟨?_, ?_, ?_⟩
  · funext j
    refine congrArg (gr.mass j + ·) (Eq.trans ?_ (scatterAdd_split S ker g pos (fun p I => I.shapeVal * 1 * s.mass p) j))
    congr 1
    funext i
    change _ * 1 * (S.share _ * s.mass _) = S.share _ * (_ * 1 * s.mass _)
    ring
  · funext j a
    refine congrArg (gr.moment j a + ·) (Eq.trans ?_ (scatterAdd_split S ker g pos (fun p I => I.shapeVal * 1 * s.mass p * s.velocity p a) j))
    congr 1
    funext i
    change _ * 1 * (S.share _ * s.mass _) * s.velocity _ a = S.share _ * (_ * 1 * s.mass _ * s.velocity _ a)
    ring
  · funext j a
    refine congrArg (0 + ·) (Eq.trans ?_ (scatterAdd_split S ker g pos (fun p I => 1 * s.volume p * internTerm dim (s.stress p) I.shapeGrad a * 1
        + I.shapeVal * 1 * s.force p a) j))
    congr 1
    funext i
    change 1 * (S.share _ * s.volume _) * internTerm dim (s.stress _) _ a * 1 + _ * 1 * (S.share _ * s.force _ a) =
      S.share _ * (1 * s.volume _ * internTerm dim (s.stress _) _ a * 1 + _ * 1 * s.force _ a)
    ring

theorem g2p_split (S : Parts K n m) (h1 : n ≠ 1) (ker : Kernel) (g : GridDomain K dim) (pos : Fin n → Fin dim → K)
    (s : MPState K dim n) (alpha dt : K) (ghost : Option (Fin n → Fin dim → K)) (gr : GridArrays K dim) :
    g2pBody alpha dt (compute ker g fun q => pos (S.of q)) (ghost.map fun f q => f (S.of q)) gr (S.mp s)
      = S.mp (g2pBody alpha dt (compute ker g pos) ghost gr s) := by
  have hb : ∀ (f : ℕ → Fin dim → K),
      ∃ G : Fin n → Interaction K → Fin dim → K,
        (∀ i, ghostBlend (compute ker g pos) ghost
          (fun i a => f ((compute ker g pos).nodeHash i) a) i
          = G ((compute ker g pos).pointId i) ⟨(compute ker g pos).nodeHash i,
            (compute ker g pos).shapeVal i, (compute ker g pos).shapeGrad i,
            (compute ker g pos).relDist i⟩) ∧
        (∀ i, ghostBlend (compute ker g fun q => pos (S.of q)) (ghost.map fun f q => f (S.of q))
          (fun i a => f ((compute ker g fun q => pos (S.of q)).nodeHash i) a) i
          = G (S.of ((compute ker g fun q => pos (S.of q)).pointId i)) ⟨(compute ker g fun q => pos (S.of q)).nodeHash i,
            (compute ker g fun q => pos (S.of q)).shapeVal i, (compute ker g fun q => pos (S.of q)).shapeGrad i,
            (compute ker g fun q => pos (S.of q)).relDist i⟩) := by
    intro f
    cases ghost with
    | none => exact ⟨fun _ I => f I.nodeHash, fun _ => rfl, fun _ => rfl⟩
    | some gh => exact ⟨fun p I a => f I.nodeHash a * 1 + gh p a * (1 - 1), fun _ => rfl, fun _ => rfl⟩
  obtain ⟨G, hG, hG'⟩ := hb (fun j a => nodeVel uslCutoff (gr.mass j) (gr.moment j a))
  obtain ⟨H, hH, hH'⟩ := hb (fun j a => nodeVel uslCutoff (gr.mass j) (gr.momentNt j a))
  have eD : ∀ p a, _ = _ := fun p a => pointSum_split S ker g pos
    (fun p I => I.shapeVal * (H p I a - G p I a)) p
  have eV : ∀ p a, _ = _ := fun p a => pointSum_split S ker g pos
    (fun p I => I.shapeVal * H p I a) p
  have eL : ∀ p j k, _ = _ := fun p (j k : Fin 3) => pointSum_split S ker g pos
    (fun p I => I.shapeGrad j * -(pad3 (H p I) k)) p
  have e1 : decide (m = 1) = decide (n = 1) := by
    rw [decide_eq_false h1, decide_eq_false (Parts.one_iff S h1)]
  simp only [g2pBody, hG, hG', hH, hH', eD, eV, eL, e1]
  simp only [Parts.mp, MPState.mk.injEq, true_and, and_true]
  funext j
  ring

theorem removeShear_split (S : Parts K n m) (fn : MathFns K) (reset : Bool) (s : MPState K dim n) :
    removeShear fn reset (S.mp s) = S.mp (removeShear fn reset s) := by
  unfold removeShear
  split_ifs
  · unfold Parts.mp
    simp only [MPState.mk.injEq, true_and, and_true]
    cases s.FStore <;> rfl
  · rfl

theorem dampingBody_split (S : Parts K n m) (al : K) (s : MPState K dim n) : dampingBody al (S.mp s) = S.mp (dampingBody al s) := by
  unfold dampingBody Parts.mp
  simp only [MPState.mk.injEq, true_and, and_true]
  funext j a
  unfold dampForce
  rw [abs_mul, abs_of_pos (S.pos j)]
  ring

end

section
variable {z : Sz} {K : Type*} [Field K] [LinearOrder K] [IsStrictOrderedRing K] [FloorRing K] {dim : ℕ}
  {SS LS FS : Type*}

/-- Entries of the dictionary of interaction lists correspond. -/
inductive Parts.InterSplit {n m : ℕ} (S : Parts K n m) :
    Option (Σ ker : Kernel, InteractionCache K n (windowSize ker dim)) →
    Option (Σ ker : Kernel, InteractionCache K m (windowSize ker dim)) → Prop
  | none : InterSplit S none none
  | some (ker dom) (pos : Fin n → Fin dim → K) :
    InterSplit S (some ⟨ker, compute ker dom pos⟩) (some ⟨ker, compute ker dom fun q => pos (S.of q)⟩)

/-- Two intermediate states of a call correspond: the grids are the same. -/
structure SceneSplit.CtxSplit (S : SceneSplit z K LS) (x : Ctx z K dim SS LS FS) (x' : Ctx S.sz K dim SS LS FS) : Prop where
  world : x'.world = S.world x.world
  mech : x'.mech = S.mech x.mech
  inter : ∀ (p : Fin z.P) (g : Fin z.G), Parts.InterSplit (S.parts p) (x.cache.interactions p g) (x'.cache.interactions p g)
  grids : x'.cache.grids = x.cache.grids
  mpGeoms : ∀ (p : Fin z.P) (d : Fin z.D), x'.cache.mpGeoms p d =
    { dists := fun j => (x.cache.mpGeoms p d).dists ((S.parts p).of j), normals := fun j => (x.cache.mpGeoms p d).normals ((S.parts p).of j)
      wallVels := fun j => (x.cache.mpGeoms p d).wallVels ((S.parts p).of j)
      friction := fun j => (x.cache.mpGeoms p d).friction ((S.parts p).of j) }
  nodeGeoms : x'.cache.nodeGeoms = x.cache.nodeGeoms

/-- The law does not see how points are split. -/
structure Parts.LawSplit {n m : ℕ} (S : Parts K n m) (τ : LS → LS) (f : Law K dim LS) : Prop where
  update : ∀ (s : MPState K dim n) (ls : LS) (dt : K),
    f.update (S.mp s) (τ ls) dt = (f.update s ls dt).map fun r => (S.mp r.1, τ r.2)

/-- The force `f'` of the split scene is the force `f`. -/
structure SceneSplit.HookSplit (S : SceneSplit z K LS) (f : ForceHooks z K dim SS LS FS) (f' : ForceHooks S.sz K dim SS LS FS) : Prop where
  kin : ∀ w m dt t, f'.kinematics (S.world w) (S.mech m) dt t
    = (f.kinematics w m dt t).map fun r => (S.world r.1, S.mech r.2)
  pre : ∀ x x' dt t, CtxSplit S x x' → ExSym (CtxSplit S) (f.preP2g x dt t) (f'.preP2g x' dt t)
  forces : ∀ x x' dt t, CtxSplit S x x' → ExSym (CtxSplit S) (f.gridForces x dt t) (f'.gridForces x' dt t)
  moments : ∀ x x' dt t, CtxSplit S x x' → ExSym (CtxSplit S) (f.gridMoments x dt t) (f'.gridMoments x' dt t)

/-- The solver `sv'` is set up for the split scene as `sv` for the whole one. -/
structure SceneSplit.SolverSplit (S : SceneSplit z K LS) (sv : Solver z K dim SS LS FS) (sv' : Solver S.sz K dim SS LS FS) : Prop where
  alpha : sv'.alpha = sv.alpha
  domains : sv'.domains = sv.domains
  couplings : sv'.couplings = sv.couplings.map S.coupling
  laws : sv'.laws = sv.laws
  forces : List.Forall₂ (HookSplit S) sv.forces sv'.forces
  sdfs : sv'.sdfs = sv.sdfs

variable {S : SceneSplit z K LS} {sv : Solver z K dim SS LS FS} {sv' : Solver S.sz K dim SS LS FS}

theorem SceneSplit.setBody (w : World z K dim SS) (p : Fin z.P) (b : Body K dim (z.np p)) :
    (S.world w).setBody p ((S.parts p).body b) = S.world (w.setBody p b) := by
  unfold World.setBody Spec.SceneSplit.world
  congr 1
  funext q
  by_cases hq : q = p
  · subst hq; simp
  · simp [Function.update_of_ne hq]

theorem SceneSplit.foldE_couplings {σ τ : Type*} {R : σ → τ → Prop} {f : σ → Coupling z → Except PyErr σ}
    {f' : τ → Coupling S.sz → Except PyErr τ} {l : List (Coupling z)}
    (hf : ∀ c ∈ l, ∀ a b, R a b → ExSym R (f a c) (f' b (S.coupling c))) {a : σ} {b : τ} (h : R a b) :
    ExSym R (Hydrax.foldE f a l) (Hydrax.foldE f' b (l.map S.coupling)) := by
  refine ExSym.foldE2 (Q := fun c c' => c ∈ l ∧ c' = S.coupling c) (fun a b c c' hc hab => ?_) ?_ h
  · obtain ⟨hc, rfl⟩ := hc
    exact hf c hc a b hab
  · rw [List.forall₂_map_right_iff]
    exact List.forall₂_same.mpr fun c hc => ⟨hc, rfl⟩

theorem SceneSplit.kin_split (hs : SolverSplit S sv sv') (w : World z K dim SS) (m : Mech z K LS FS) (dt t : K) :
    ExSym (fun r r' => r' = (S.world r.1, S.mech r.2)) (kinematicUpdate sv w m dt t)
      (kinematicUpdate sv' (S.world w) (S.mech m) dt t) := by
  unfold kinematicUpdate
  refine ExSym.andThen (R := fun r r' => r' = (S.world r.1, S.mech r.2)) ?_ ?_
  · refine ExSym.foldE2 (Q := HookSplit S) ?_ hs.forces rfl
    rintro a b f f' hf rfl
    rw [hf.kin]
    cases f.kinematics a.1 a.2 dt t with
    | error e => exact .error e
    | ok r => exact .ok rfl
  · rintro a b rfl
    refine .ok ?_
    rw [hs.sdfs]
    rfl

theorem SceneSplit.reset_split (hs : SolverSplit S sv sv') (w : World z K dim SS) :
    resetMaterialPoints sv' (S.world w) = S.world (resetMaterialPoints sv w) := by
  unfold resetMaterialPoints Spec.SceneSplit.world
  rw [hs.couplings]
  simp only [World.mk.injEq, and_true]
  funext p
  have e : ((sv.couplings.map S.coupling).any fun c => decide (c.p = p)) = sv.couplings.any fun c => decide (c.p = p) := by
    rw [List.any_map]; rfl
  rw [e]
  split_ifs
  · cases w.bodies p with
    | rigid r => rfl
    | deformable s =>
      show Body.deformable _ = Body.deformable _
      congr 1
      unfold resetBody Parts.mp
      simp
  · rfl

theorem SceneSplit.conn_split (hs : SolverSplit S sv sv') (w : World z K dim SS) (p : Fin z.P) (g : Fin z.G) :
    Parts.InterSplit (S.parts p) (computeConnectivity sv w p g) (computeConnectivity sv' (S.world w) p g) := by
  unfold computeConnectivity
  rw [hs.couplings]
  have key : ∀ (l : List (Coupling z)) (d : Inter z K dim) (d' : Inter S.sz K dim),
      (∀ (p : Fin z.P) (g : Fin z.G), Parts.InterSplit (S.parts p) (d p g) (d' p g)) →
      ∀ (p : Fin z.P) (g : Fin z.G), Parts.InterSplit (S.parts p) (l.foldl (connStep sv w) d p g)
        ((l.map S.coupling).foldl (connStep sv' (S.world w)) d' p g) := by
    intro l
    induction l with
    | nil => intro d d' h; exact h
    | cons c l ih =>
      intro d d' h
      refine ih _ _ fun q k => ?_
      unfold connStep Inter.set
      by_cases hq : q = c.p
      · subst hq
        have e1 : (S.coupling c).p = c.p := rfl
        have e2 : (S.coupling c).g = c.g := rfl
        rw [Function.update_self, e1, Function.update_self]
        by_cases hk : k = c.g
        · subst hk
          rw [Function.update_self, e2, Function.update_self]
          have hp : ((S.world w).bodies c.p).position = fun j => (w.bodies c.p).position ((S.parts c.p).of j) := by
            simp only [Spec.SceneSplit.world]
            cases w.bodies c.p <;> rfl
          change Parts.InterSplit _ _ (some ⟨c.ker, compute c.ker (sv'.domains c.g) ((S.world w).bodies c.p).position⟩)
          rw [hp, hs.domains]
          exact .some _ _ _
        · rw [Function.update_of_ne hk, e2, Function.update_of_ne hk]
          exact h _ _
      · rw [Function.update_of_ne hq]
        have : q ≠ (S.coupling c).p := hq
        rw [Function.update_of_ne this]
        exact h _ _
  exact key _ _ _ (fun _ _ => .none) p g

theorem SceneSplit.cache_split (hs : SolverSplit S sv sv') (fn : MathFns K) (w : World z K dim SS) (m : Mech z K LS FS)
    (dt : K) : CtxSplit S ⟨w, m, buildCache fn sv w dt⟩ ⟨S.world w, S.mech m, buildCache fn sv' (S.world w) dt⟩ where
  world := rfl
  mech := rfl
  inter p g := by
    rw [buildCache_interactions, buildCache_interactions]
    exact conn_split hs w p g
  grids := rfl
  mpGeoms p d := by
    have hp : ((S.world w).bodies p).position = fun j => (w.bodies p).position ((S.parts p).of j) := by
      simp only [Spec.SceneSplit.world]
      cases w.bodies p <;> rfl
    simp only [buildCache, hp, hs.sdfs, sdfGeom]
    rfl
  nodeGeoms := by
    funext g d
    simp only [buildCache, hs.sdfs, hs.domains, sdfGeom]
    rfl

theorem SceneSplit.CtxSplit.setGrid {x : Ctx z K dim SS LS FS} {x' : Ctx S.sz K dim SS LS FS} (hx : CtxSplit S x x') (g : Fin z.G)
    (a : GridArrays K dim) : CtxSplit S (x.setGrid g a) (x'.setGrid g a) where
  world := hx.world
  mech := hx.mech
  inter := hx.inter
  grids := by simp only [Ctx.setGrid, hx.grids]
  mpGeoms := hx.mpGeoms
  nodeGeoms := hx.nodeGeoms

theorem SceneSplit.CtxSplit.setBody {x : Ctx z K dim SS LS FS} {x' : Ctx S.sz K dim SS LS FS} (hx : CtxSplit S x x') (p : Fin z.P)
    (b : Body K dim (z.np p)) : CtxSplit S (x.setBody p b) (x'.setBody p ((S.parts p).body b)) where
  world := by
    unfold Ctx.setBody
    simp only [hx.world, SceneSplit.setBody]
  mech := hx.mech
  inter := hx.inter
  grids := hx.grids
  mpGeoms := hx.mpGeoms
  nodeGeoms := hx.nodeGeoms

theorem SceneSplit.CtxSplit.body {x : Ctx z K dim SS LS FS} {x' : Ctx S.sz K dim SS LS FS} (hx : CtxSplit S x x') (p : Fin z.P) :
    x'.world.bodies p = (S.parts p).body (x.world.bodies p) := by
  rw [hx.world]; rfl

theorem SceneSplit.CtxSplit.grid {x : Ctx z K dim SS LS FS} {x' : Ctx S.sz K dim SS LS FS} (hx : CtxSplit S x x') (g : Fin z.G) :
    x'.cache.grids g = x.cache.grids g := congrFun hx.grids g

theorem SceneSplit.hook_split (hs : SolverSplit S sv sv')
    (hook : ForceHooks z K dim SS LS FS → Ctx z K dim SS LS FS → K → K → Except PyErr (Ctx z K dim SS LS FS))
    (hook' : ForceHooks S.sz K dim SS LS FS → Ctx S.sz K dim SS LS FS → K → K → Except PyErr (Ctx S.sz K dim SS LS FS)) {dt t : K}
    (hh : ∀ f f', HookSplit S f f' → ∀ x x', CtxSplit S x x' → ExSym (CtxSplit S) (hook f x dt t) (hook' f' x' dt t))
    {x : Ctx z K dim SS LS FS} {x' : Ctx S.sz K dim SS LS FS} (hx : CtxSplit S x x') :
    ExSym (CtxSplit S) (runHook hook sv.forces x dt t) (runHook hook' sv'.forces x' dt t) :=
  ExSym.foldE2 (fun a b f f' hf hab => hh f f' hf a b hab) hs.forces hx

theorem SceneSplit.p2gCoupling_split (c : Coupling z) {x : Ctx z K dim SS LS FS} {x' : Ctx S.sz K dim SS LS FS}
    (hx : CtxSplit S x x') : ExSym (CtxSplit S) (p2gCoupling x c) (p2gCoupling x' (S.coupling c)) := by
  unfold p2gCoupling
  by_cases hk : c.skip = true
  · have hk' : (S.coupling c).skip = true := hk
    rw [if_pos hk, if_pos hk']
    exact .ok hx
  have hk' : ¬ (S.coupling c).skip = true := hk
  rw [if_neg hk, if_neg hk']
  simp only [Spec.SceneSplit.coupling]
  · have hi := hx.inter c.p c.g
    rw [hx.body c.p, hx.grid]
    generalize x.cache.interactions c.p c.g = a at hi ⊢
    generalize x'.cache.interactions c.p c.g = b at hi ⊢
    cases hi with
    | none => exact .error _
    | some ker dom pos =>
      cases x.world.bodies c.p with
      | rigid r => exact .error _
      | deformable s =>
        simp only [Parts.body]
        have ev : ((S.parts c.p).mp s).volScalar = s.volScalar := rfl
        rw [ev]
        split_ifs
        · exact .error _
        · refine .ok ?_
          rw [p2g_split (S.parts c.p)]
          exact hx.setGrid c.g _

theorem SceneSplit.p2g_split' (hs : SolverSplit S sv sv') (dt t : K) {x : Ctx z K dim SS LS FS} {x' : Ctx S.sz K dim SS LS FS}
    (hx : CtxSplit S x x') : ExSym (CtxSplit S) (uslP2g sv x dt t) (uslP2g sv' x' dt t) := by
  unfold uslP2g
  rw [hs.couplings]
  refine ExSym.andThen (hook_split hs _ _ (fun f f' hf x x' hx => hf.pre x x' dt t hx) hx) ?_
  intro a b hab
  exact foldE_couplings (fun c _ a b hab => p2gCoupling_split c hab) hab

theorem SceneSplit.integrate_split (hs : SolverSplit S sv sv') (dt t : K) {x : Ctx z K dim SS LS FS} {x' : Ctx S.sz K dim SS LS FS}
    (hx : CtxSplit S x x') : ExSym (CtxSplit S) (integrateGrid sv x dt t) (integrateGrid sv' x' dt t) := by
  unfold integrateGrid
  rw [hs.couplings]
  refine ExSym.andThen (hook_split hs _ _ (fun f f' hf x x' hx => hf.forces x x' dt t hx) hx) ?_
  intro a b hab
  refine ExSym.andThen (foldE_couplings (R := CtxSplit S) ?_ hab) ?_
  · intro c _ a b hab
    unfold integrateCoupling
    by_cases hk : c.skip = true
    · have hk' : (S.coupling c).skip = true := hk
      rw [if_pos hk, if_pos hk']
      exact .ok hab
    have hk' : ¬ (S.coupling c).skip = true := hk
    rw [if_neg hk, if_neg hk']
    simp only [Spec.SceneSplit.coupling]
    · refine .ok ?_
      rw [hab.grid]
      exact hab.setGrid c.g _
  · intro a b hab
    exact hook_split hs _ _ (fun f f' hf x x' hx => hf.moments x x' dt t hx) hab

theorem SceneSplit.ghost_split {x : Ctx z K dim SS LS FS} {x' : Ctx S.sz K dim SS LS FS} (hx : CtxSplit S x x') (p : Fin z.P)
    (s : MPState K dim (z.np p)) :
    ghostVelocity x' p ((S.parts p).mp s) = (ghostVelocity x p s).map fun f q => f ((S.parts p).of q) := by
  unfold ghostVelocity
  split_ifs with h
  · rfl
  · simp only [Option.map_some, hx.mpGeoms]
    rfl

theorem SceneSplit.g2pCoupling_split (alpha dt : K) (c : Coupling z) {x : Ctx z K dim SS LS FS} {x' : Ctx S.sz K dim SS LS FS}
    (hx : CtxSplit S x x') : ExSym (CtxSplit S) (g2pCoupling alpha dt x c) (g2pCoupling alpha dt x' (S.coupling c)) := by
  unfold g2pCoupling
  have hi := hx.inter c.p c.g
  have n1 : ¬ (z.D ≠ 0 ∧ z.np c.p = 1) := fun h => S.many c.p h.2
  have n2 : ¬ (S.sz.D ≠ 0 ∧ S.sz.np (S.coupling c).p = 1) := fun h => Parts.one_iff (S.parts c.p) (S.many c.p) h.2
  by_cases hk : c.skip = true
  · have hk' : (S.coupling c).skip = true := hk
    rw [if_pos hk, if_pos hk']
    exact .ok hx
  have hk' : ¬ (S.coupling c).skip = true := hk
  rw [if_neg hk, if_neg hk']
  simp only [Spec.SceneSplit.coupling]
  · rw [hx.body c.p, hx.grid]
    generalize x.cache.interactions c.p c.g = a at hi ⊢
    generalize x'.cache.interactions c.p c.g = b at hi ⊢
    cases hi with
    | none => exact .error _
    | some ker dom pos =>
      cases x.world.bodies c.p with
      | rigid r => exact .error _
      | deformable s =>
        simp only [Parts.body]
        rw [if_neg n1]
        refine Eq.mpr (congrArg (ExSym (CtxSplit S) _) (if_neg n2)) ?_
        refine .ok ?_
        rw [ghost_split hx, g2p_split (S.parts c.p) (S.many c.p)]
        exact hx.setBody c.p (.deformable _)

theorem SceneSplit.g2p_split' (hs : SolverSplit S sv sv') (dt t : K) {x : Ctx z K dim SS LS FS} {x' : Ctx S.sz K dim SS LS FS}
    (hx : CtxSplit S x x') : ExSym (CtxSplit S) (uslG2p sv x dt t) (uslG2p sv' x' dt t) := by
  unfold uslG2p
  rw [hs.couplings, hs.alpha]
  exact foldE_couplings (fun c _ a b hab => g2pCoupling_split _ _ c hab) hx

theorem SceneSplit.law_split (hs : SolverSplit S sv sv') (fn : MathFns K) (dt : K) (c : Coupling z)
    {x : Ctx z K dim SS LS FS} {x' : Ctx S.sz K dim SS LS FS} (hx : CtxSplit S x x')
    (hl : c.skip = false → ∀ s, x.world.bodies c.p = .deformable s → (sv.laws c.c).update ((S.parts c.p).mp s) (S.law c.c (x.mech.laws c.c)) dt =
      ((sv.laws c.c).update s (x.mech.laws c.c) dt).map fun r => ((S.parts c.p).mp r.1, S.law c.c r.2)) :
    ExSym (CtxSplit S) (lawCoupling fn sv.laws dt x c) (lawCoupling fn sv'.laws dt x' (S.coupling c)) := by
  unfold lawCoupling
  by_cases hk : c.skip = true
  · have hk' : (S.coupling c).skip = true := hk
    rw [if_pos hk, if_pos hk']
    exact .ok hx
  have hk' : ¬ (S.coupling c).skip = true := hk
  rw [if_neg hk, if_neg hk']
  simp only [Spec.SceneSplit.coupling]
  · rw [hx.body c.p, hs.laws]
    replace hl := hl (by simpa using hk)
    cases hb : x.world.bodies c.p with
    | rigid r => exact .error _
    | deformable s =>
      simp only [Parts.body]
      have em : x'.mech.laws c.c = S.law c.c (x.mech.laws c.c) := by rw [hx.mech]; rfl
      rw [em, hl s hb]
      cases (sv.laws c.c).update s (x.mech.laws c.c) dt with
      | error e => exact .error e
      | ok r =>
        refine .ok ?_
        have h1 := hx.setBody c.p (.deformable (removeShear fn (sv.laws c.c).requiresFReset r.1))
        have h2 := removeShear_split (S.parts c.p) fn (sv.laws c.c).requiresFReset r.1
        refine ⟨?_, ?_, h1.inter, h1.grids, h1.mpGeoms, h1.nodeGeoms⟩
        · have := h1.world
          simp only [Parts.body] at this
          rw [← h2] at this
          exact this
        · simp only [hx.mech, Spec.SceneSplit.mech, Mech.mk.injEq, and_true]
          funext k
          by_cases hk : k = c.c
          · subst hk; simp
          · simp [Function.update_of_ne hk]

/-- One call on the split scene gives the split result. -/
theorem SceneSplit.call_split (hs : SolverSplit S sv sv')
    (hl : ∀ c ∈ sv.couplings, Parts.LawSplit (S.parts c.p) (S.law c.c) (sv.laws c.c)) (fn : MathFns K) (st : SimState z K dim SS LS FS) :
    uslCall fn sv' (S.state st) = (uslCall fn sv st).map S.state := by
  apply ExSym.map_eq
  unfold uslCall callWith
  refine ExSym.andThen (kin_split hs st.world st.mech st.dt st.time) ?_
  rintro a b rfl
  simp only [reset_split hs]
  refine ExSym.andThen (p2g_split' hs st.dt st.time (cache_split hs fn _ a.2 st.dt)) ?_
  intro a b hab
  refine ExSym.andThen (integrate_split hs st.dt st.time hab) ?_
  intro a b hab
  refine ExSym.andThen (g2p_split' hs st.dt st.time hab) ?_
  intro a b hab
  unfold constitutiveUpdate
  rw [hs.couplings]
  refine ExSym.andThen (foldE_couplings (R := CtxSplit S) (fun c hc a b hab =>
    law_split hs fn st.dt c hab fun _ s _ => (hl c hc).update s _ _) hab) ?_
  intro a b hab
  refine .ok ?_
  unfold Spec.SceneSplit.state
  simp only [hab.world, hab.mech]

end
end Hydrax
