import Verif.Lemmas.SceneGrid
import Verif.Lemmas.ExampleScene
import Verif.Props.Invariants

/-!
# Properties C10, C12, C13, C23: momentum of a scene, rigid translation, shared grids
-/

set_option linter.unusedSectionVars false

namespace Hydrax
open Spec

section
variable {z : Sz} {K : Type*} [Field K] [LinearOrder K] [IsStrictOrderedRing K] [FloorRing K] {dim : ℕ}
  {SS LS : Type*} {fn : MathFns K} {sv : Solver z K dim SS LS (ForceState K dim)}

/-- Linear momentum of a deformable body. -/
def Spec.bodyMomentum {n : ℕ} : Body K dim n → Fin dim → K
  | .deformable s, a => ∑ p, s.mass p * s.velocity p a
  | .rigid _, _ => 0

/-- Mass of a deformable body. -/
def Spec.bodyMass {n : ℕ} : Body K dim n → K
  | .deformable s => ∑ p, s.mass p
  | .rigid _ => 0

/-- Total linear momentum of the deformable bodies of a scene. -/
def Spec.totalMomentum (w : World z K dim SS) (a : Fin dim) : K := ∑ p, bodyMomentum (w.bodies p) a

/-- The side conditions of momentum conservation in a state: one coupling per body; bodies with an active coupling lie in
the user's box of their grid and have positive masses; every node with mass carries more than the solver's
cutoff. -/
structure Spec.Regular (cut : K) (sv : Solver z K dim SS LS (ForceState K dim)) (w : World z K dim SS) : Prop where
  single : (sv.couplings.map (·.p)).Nodup
  box : ∀ c ∈ sv.couplings, c.skip = false → ∃ o e h pad, 0 < h ∧ 2 ≤ pad ∧
    sv.domains c.g = GridDomain.create o e h pad ∧ ∀ q, InBox o e ((w.bodies c.p).position q)
  mass_pos : ∀ c ∈ sv.couplings, c.skip = false → ∀ s, w.bodies c.p = .deformable s → ∀ q, 0 < s.mass q
  cutoff : ∀ g j, 0 < gridSum sv.couplings g (fun c => (w.bodies c.p).nodeMass c.ker (sv.domains c.g) j) →
    cut < gridSum sv.couplings g (fun c => (w.bodies c.p).nodeMass c.ker (sv.domains c.g) j)

theorem nodeVel_zero (cut m : K) : nodeVel cut m 0 = 0 := by
  unfold nodeVel; split_ifs <;> simp

theorem mul_nodeVel {cut m mom : K} (h : cut < m) (h0 : 0 < m) : m * nodeVel cut m mom = mom := by
  unfold nodeVel
  rw [if_pos h, if_pos h, mul_div_cancel₀ _ h0.ne']

/-- Momentum of a body after the gather, in terms of nodal quantities. -/
theorem g2p_momentum {n w N : ℕ} {c : InteractionCache K n w} (hc : GoodCache c N) (alpha dt : K) (gr : GridArrays K dim)
    (s : MPState K dim n) (a : Fin dim) :
    ∑ p, (g2pBody alpha dt c none gr s).mass p * (g2pBody alpha dt c none gr s).velocity p a =
      ∑ j ∈ Finset.range N, nodeMass c s.mass j * (nodeVel uslCutoff (gr.mass j) (gr.momentNt j a) -
        alpha * nodeVel uslCutoff (gr.mass j) (gr.moment j a)) + alpha * ∑ p, s.mass p * s.velocity p a := by
  have h1 := sum_mass_interp hc s.mass (fun j => nodeVel uslCutoff (gr.mass j) (gr.momentNt j a) -
        alpha * nodeVel uslCutoff (gr.mass j) (gr.moment j a))
  rw [← h1, Finset.mul_sum, ← Finset.sum_add_distrib]
  refine Finset.sum_congr rfl fun p _ => ?_
  have e : pointSum c (fun i => c.shapeVal i * (nodeVel uslCutoff (gr.mass (c.nodeHash i)) (gr.momentNt (c.nodeHash i) a) -
      alpha * nodeVel uslCutoff (gr.mass (c.nodeHash i)) (gr.moment (c.nodeHash i) a))) p =
      pointSum c (fun i => c.shapeVal i * nodeVel uslCutoff (gr.mass (c.nodeHash i)) (gr.momentNt (c.nodeHash i) a)) p -
      alpha * pointSum c (fun i => c.shapeVal i * nodeVel uslCutoff (gr.mass (c.nodeHash i))
        (gr.moment (c.nodeHash i) a)) p := by
    rw [← pointSum_mul, ← pointSum_sub]
    congr 1; funext i; ring
  rw [e]
  simp only [g2pBody, ghostBlend]
  have e2 : pointSum c (fun i => c.shapeVal i * (nodeVel uslCutoff (gr.mass (c.nodeHash i)) (gr.momentNt (c.nodeHash i) a) -
      nodeVel uslCutoff (gr.mass (c.nodeHash i)) (gr.moment (c.nodeHash i) a))) p =
      pointSum c (fun i => c.shapeVal i * nodeVel uslCutoff (gr.mass (c.nodeHash i)) (gr.momentNt (c.nodeHash i) a)) p -
      pointSum c (fun i => c.shapeVal i * nodeVel uslCutoff (gr.mass (c.nodeHash i))
        (gr.moment (c.nodeHash i) a)) p := by
    rw [← pointSum_sub]
    congr 1; funext i; ring
  rw [e2]
  ring

/-- Stages of a USL call under gravity and hooks that act on nodal momenta: the nodal quantities, the bodies after the
gather, and the constitutive update that follows. -/
structure UslGather (fn : MathFns K) (sv : Solver z K dim SS LS (ForceState K dim)) (gravs : List (List (Fin z.G) × ℕ))
    (st st' : SimState z K dim SS LS (ForceState K dim)) (grids : Fin z.G → GridArrays K dim)
    (f : Fin z.G → ℕ → Fin dim → K) (x3 x4 : Ctx z K dim SS LS (ForceState K dim)) : Prop where
  mass : ∀ g j, (grids g).mass j =
    gridSum sv.couplings g (fun c => (st.world.bodies c.p).nodeMass c.ker (sv.domains c.g) j)
  moment : ∀ g j a, (grids g).moment j a =
    gridSum sv.couplings g (fun c => (st.world.bodies c.p).nodeMoment c.ker (sv.domains c.g) j a)
  force : ∀ g j a, (grids g).force j a = f g j a + (grids g).mass j * gridAccel st.mech.forces gravs g a
  force_sum : ∀ g a, ∑ j ∈ Finset.range (sv.domains g).numCells, f g j a = 0
  mass_nonneg : ∀ g j, 0 ≤ (grids g).mass j
  empty : ∀ g j, (grids g).mass j = 0 → ∀ a, (grids g).moment j a = 0 ∧ f g j a = 0
  stressfree : (∀ c ∈ sv.couplings, c.skip = false → ∀ s, st.world.bodies c.p = .deformable s → ∀ q, s.stress q = 0) →
    ∀ g j a, f g j a = 0
  internal : ∀ c ∈ sv.couplings, c.skip = false → (∀ b ∈ sv.couplings, b.skip = false → b.g = c.g → b = c) →
    ∀ s, st.world.bodies c.p = .deformable s →
      f c.g = (p2gBody (compute c.ker (sv.domains c.g) s.position) (resetBody s) GridArrays.new).force
  body : ∀ c ∈ sv.couplings, c.skip = false → ∃ s, st.world.bodies c.p = .deformable s ∧
    GoodCache (compute c.ker (sv.domains c.g) s.position) (sv.domains c.g).numCells ∧ (∀ q, 0 < s.mass q) ∧
    x3.world.bodies c.p = .deformable
      (g2pBody sv.alpha st.dt (compute c.ker (sv.domains c.g) s.position) none (grids c.g) (resetBody s))
  other : ∀ p, (∀ c ∈ sv.couplings, c.skip = false → c.p ≠ p) →
    x3.world.bodies p = st.world.bodies p ∨
      ∃ s, st.world.bodies p = .deformable s ∧ x3.world.bodies p = .deformable (resetBody s)
  mech : x3.mech = st.mech
  law : foldE (lawCoupling fn sv.laws st.dt) x3 sv.couplings = .ok x4
  world' : st'.world = x4.world
  mech' : st'.mech = x4.mech
  dt' : st'.dt = st.dt

/-- Stages of a USL call under gravity alone. -/
structure UslStages (fn : MathFns K) (sv : Solver z K dim SS LS (ForceState K dim)) (gravs : List (List (Fin z.G) × ℕ))
    (st st' : SimState z K dim SS LS (ForceState K dim)) (grids : Fin z.G → GridArrays K dim)
    (f : Fin z.G → ℕ → Fin dim → K) (x3 x4 : Ctx z K dim SS LS (ForceState K dim)) : Prop
    extends UslGather fn sv gravs st st' grids f x3 x4 where
  momentNt : ∀ c ∈ sv.couplings, c.skip = false → (grids c.g).momentNt =
    fun j a => (grids c.g).moment j a + (grids c.g).force j a * st.dt

theorem usl_stages (gravs : List (List (Fin z.G) × ℕ)) (hdim : dim = 2 ∨ dim = 3)
    (hforces : sv.forces = gravityList gravs) {st st' : SimState z K dim SS LS (ForceState K dim)}
    (h : uslCall fn sv st = .ok st') {cut : K} (hr : Regular cut sv st.world) :
    ∃ grids f x3 x4, UslStages fn sv gravs st st' grids f x3 x4 := by
  have hlib : ∀ f ∈ sv.forces, LibForce f := hforces ▸ gravityList_lib gravs
  obtain ⟨wm, x1, x2, x3, x4, h1, h2, h3, h4, h5, rfl⟩ := callWith_ok h
  have hk := kinematicUpdate_lib hlib _ _ _ _ _ h1
  obtain ⟨x0, h20, h21⟩ := andThen_ok.mp h2
  rw [hforces] at h20
  have hx0 := (gravity_pass gravs _ _ _ _).1 h20
  subst hx0
  obtain ⟨y1, h31, h3⟩ := andThen_ok.mp h3
  obtain ⟨y2, h32, h33⟩ := andThen_ok.mp h3
  rw [hforces] at h31 h33
  have hy2 := (gravity_pass gravs _ _ _ _).2 h33
  obtain rfl : x2 = y2 := hy2
  rename' x2 => y2
  set w0 := resetMaterialPoints sv wm.1 with hw0
  have hbod : wm.1.bodies = st.world.bodies := hk.1
  have hnm := fun p => reset_nodeMass sv wm.1 p
  rw [← hw0, hbod] at hnm
  have hact : ∀ c ∈ sv.couplings, ∀ t, w0.bodies c.p = .deformable t →
      ∃ s, st.world.bodies c.p = .deformable s ∧ t = resetBody s := by
    intro c hc t ht
    have := reset_active sv wm.1 c hc t ht
    rwa [hbod] at this
  have hgood : ∀ c ∈ sv.couplings, c.skip = false → ∀ s, st.world.bodies c.p = .deformable s →
      GoodCache (compute c.ker (sv.domains c.g) s.position) (sv.domains c.g).numCells := by
    intro c hc hs s hb
    obtain ⟨o, e, hh, pad, hpos, hpad, hd, hx⟩ := hr.box c hc hs
    rw [hb] at hx
    rw [hd]
    exact goodCache_of_inBox hdim c.ker o e hh hpos pad hpad s.position hx
  -- interaction lists
  have hl0 : HasLists sv.domains (⟨w0, wm.2, buildCache fn sv w0 st.dt⟩ : Ctx z K dim SS LS (ForceState K dim))
      sv.couplings := by
    intro c hc
    change (buildCache fn sv w0 st.dt).interactions c.p c.g = _
    rw [buildCache_interactions]
    exact computeConnectivity_self sv w0 hr.single c hc
  -- particle to grid
  have s1 := p2g_fold_sums sv.domains sv.couplings _ x1 hl0 h21
  have o1 := p2g_fold_ok sv.domains sv.couplings _ x1 hl0 h21 (by
      intro c hc hs
      change GoodBody c.ker (sv.domains c.g) (w0.bodies c.p)
      cases hb : w0.bodies c.p with
      | rigid _ => trivial
      | deformable t =>
        obtain ⟨s, e1, rfl⟩ := hact c hc t hb
        exact ⟨hgood c hc hs s e1, hr.mass_pos c hc hs s e1⟩) (by
      intro c hc hs t ht
      obtain ⟨s, e1, rfl⟩ := hact c hc t ht
      exact fun _ _ => rfl)
    (fun g => ⟨fun _ => le_rfl, fun _ _ _ => ⟨rfl, rfl⟩, fun a => by simp [buildCache, GridArrays.new]⟩)
  have w1 := same_of_fold sv.couplings _ x1 (fun c _ x x' hx => p2gCoupling_world x x' c hx) h21
  -- gravity
  have g1 := gravity_fold gravs x1 y1 _ _ h31
  have wy1 : y1.world = x1.world ∧ y1.mech = x1.mech ∧ y1.cache.interactions = x1.cache.interactions ∧
      y1.cache.mpGeoms = x1.cache.mpGeoms := same_of_fold (gravityList gravs) x1 y1
    (fun f hfm x x' hx => libForce_gridForces (gravityList_lib gravs f hfm) x x' _ _ hx) h31
  have hmech1 : x1.mech = st.mech := w1.2.1.trans hk.2.1
  -- integration
  have i1 := integrate_fold st.dt sv.couplings y1 y2 h32
  have wy2 := same_of_fold sv.couplings y1 y2
    (fun c _ x x' hx => integrateCoupling_world st.dt x x' c hx) h32
  -- gather
  have hwy : y2.world = w0 := by rw [wy2.1, wy1.1, w1.1]
  have hl2 : HasLists sv.domains y2 sv.couplings := by
    intro c hc
    rw [wy2.2.2.1, wy1.2.2.1, w1.2.2.1, hwy]
    exact hl0 c hc
  obtain ⟨-, gm, gb, go⟩ := g2p_fold sv.alpha st.dt sv.domains sv.couplings hr.single y2 x3 hl2 h4
  have hmass : ∀ g j, (y2.cache.grids g).mass j = (x1.cache.grids g).mass j := by
    intro g j; rw [(i1 g).1, g1 g]
  have hmom : ∀ g j a, (y2.cache.grids g).moment j a = (x1.cache.grids g).moment j a := by
    intro g j a; rw [(i1 g).2.1, g1 g]
  refine ⟨y2.cache.grids, fun g => (x1.cache.grids g).force, x3, x4, ⟨?_, ?_, ?_, ?_, ?_, ?_, ?_, ?_, ?_, ?_, ?_, h5, rfl,
    rfl, rfl⟩, ?_⟩
  · intro g j
    rw [hmass, (s1 g j).1]
    simp only [hnm]
    simp [buildCache, GridArrays.new]
  · intro g j a
    rw [hmom, (s1 g j).2 a]
    simp only [hnm]
    simp [buildCache, GridArrays.new]
  · intro g j a
    rw [(i1 g).2.2.1, hmass, g1 g, hmech1]
  · exact fun g a => (o1 g).force_sum a
  · intro g j; rw [hmass]; exact (o1 g).mass_nonneg j
  · intro g j hm a
    rw [hmass] at hm
    rw [hmom]
    exact (o1 g).empty j hm a
  · intro hsf g j a
    refine p2g_fold_stressfree sv.domains sv.couplings _ x1 hl0 h21 ?_ (fun _ _ _ => rfl) g j a
    intro c hc hs t ht
    obtain ⟨s, e1, rfl⟩ := hact c hc t ht
    exact fun q => ⟨hsf c hc hs s e1 q, fun _ => rfl⟩
  · intro c hc hs hone s e1
    have hb0 : w0.bodies c.p = .deformable (resetBody s) := by
      rcases hb : w0.bodies c.p with t | t
      · obtain ⟨s2, e2, rfl⟩ := hact c hc t hb
        rw [e1] at e2
        cases e2
        rfl
      · obtain ⟨t2, e2, e3⟩ := gb c hc hs
        rw [hwy, hb] at e2
        cases e2
    exact p2g_fold_force sv.domains c (resetBody s) sv.couplings _ x1 hl0 h21 hs hb0 hone (.inl hc)
  · intro c hc hs
    obtain ⟨t, e1, e2⟩ := gb c hc hs
    rw [hwy] at e1
    obtain ⟨s, e3, rfl⟩ := hact c hc t e1
    exact ⟨s, e3, hgood c hc hs s e3, hr.mass_pos c hc hs s e3, e2⟩
  · intro p hp
    rw [go p hp, hwy]
    have := reset_body sv wm.1 p
    rwa [hbod] at this
  · rw [gm, wy2.2.1, wy1.2.1, hmech1]
  · intro c hc hs
    rw [(i1 c.g).2.2.2 ⟨c, hc, hs, rfl⟩, (i1 c.g).2.1, (i1 c.g).2.2.1]

theorem bodyMomentum_rel {n : ℕ} {b b' : Body K dim n} (h : Body.Rel SameMotion b b') :
    bodyMomentum b' = bodyMomentum b ∧ bodyMass b' = bodyMass b := by
  cases b <;> cases b' <;> simp only [Body.Rel] at h
  · obtain ⟨h1, h2, -, -⟩ := h
    refine ⟨?_, by simp only [bodyMass, h1]⟩
    funext a
    simp only [bodyMomentum, h1, h2]
  · subst h; exact ⟨rfl, rfl⟩

theorem gridSum_ne_zero (cs : List (Coupling z)) (g : Fin z.G) (f : Coupling z → K) (h : gridSum cs g f ≠ 0) :
    ∃ c ∈ cs, c.skip = false ∧ c.g = g := by
  by_contra hn
  push Not at hn
  refine h ((gridSum_congr cs g f (fun _ => 0) fun c hc hs hg => absurd hg (hn c hc hs)).trans ?_)
  simp [gridSum]

/-- One USL step changes total momentum exactly by `dt` times the weight of the active bodies, for every blend `alpha`. -/
theorem usl_step_momentum (gravs : List (List (Fin z.G) × ℕ)) (hdim : dim = 2 ∨ dim = 3)
    (hforces : sv.forces = gravityList gravs) (hL : ∀ c, (sv.laws c).OnlyStress)
    {st st' : SimState z K dim SS LS (ForceState K dim)}
    (h : uslCall fn sv st = .ok st') (hr : Regular uslCutoff sv st.world) (a : Fin dim) :
    totalMomentum st'.world a = totalMomentum st.world a +
      st.dt * activeSum sv.couplings (fun c => bodyMass (st.world.bodies c.p) * gridAccel st.mech.forces gravs c.g a) := by
  obtain ⟨grids, f, x3, x4, S⟩ := usl_stages gravs hdim hforces h hr
  have hlaw := (law_fold hL st.dt sv.couplings x3 x4 S.law).2
  rw [← sub_eq_iff_eq_add']
  unfold totalMomentum
  rw [← Finset.sum_sub_distrib]
  rw [sum_bodies sv.couplings hr.single (fun p => bodyMomentum (st'.world.bodies p) a - bodyMomentum (st.world.bodies p) a)]
  swap
  · intro p hp
    rw [S.world', (bodyMomentum_rel (hlaw p)).1]
    rcases S.other p hp with e | ⟨s, e1, e2⟩
    · rw [e, sub_self]
    · rw [e1, e2]
      exact sub_self _
  -- momentum gained by one body, node by node
  have hD : ∀ c ∈ sv.couplings, c.skip = false →
      bodyMomentum (st'.world.bodies c.p) a - bodyMomentum (st.world.bodies c.p) a =
      ∑ j ∈ Finset.range (sv.domains c.g).numCells,
        ((st.world.bodies c.p).nodeMass c.ker (sv.domains c.g) j *
          (nodeVel uslCutoff ((grids c.g).mass j) ((grids c.g).momentNt j a) -
            sv.alpha * nodeVel uslCutoff ((grids c.g).mass j) ((grids c.g).moment j a)) +
          (sv.alpha - 1) * (st.world.bodies c.p).nodeMoment c.ker (sv.domains c.g) j a) := by
    intro c hc hs
    obtain ⟨s, e1, hgc, -, e2⟩ := S.body c hc hs
    rw [S.world', (bodyMomentum_rel (hlaw c.p)).1, e2, e1]
    have hm := g2p_momentum hgc sv.alpha st.dt (grids c.g) (resetBody s) a
    simp only [bodyMomentum]
    rw [hm, Finset.sum_add_distrib, ← Finset.mul_sum]
    have hP : ∑ j ∈ Finset.range (sv.domains c.g).numCells,
        (Body.deformable s).nodeMoment c.ker (sv.domains c.g) j a = ∑ p, s.mass p * s.velocity p a := by
      simp only [Body.nodeMoment]
      rw [sum_scatterAdd _ hgc.hash_lt, ← sum_point_field hgc]
      exact Finset.sum_congr rfl fun i _ => by ring
    rw [hP]
    have hP' : ∑ p, (resetBody s).mass p * (resetBody s).velocity p a = ∑ p, s.mass p * s.velocity p a := rfl
    have hM : ∀ j, nodeMass (compute c.ker (sv.domains c.g) s.position) (resetBody s).mass j =
        (Body.deformable s).nodeMass c.ker (sv.domains c.g) j := fun _ => rfl
    simp only [hP', hM]
    ring
  rw [activeSum_congr _ _ _ hD]
  have hMass : ∀ c ∈ sv.couplings, c.skip = false →
      bodyMass (st.world.bodies c.p) * gridAccel st.mech.forces gravs c.g a =
      ∑ j ∈ Finset.range (sv.domains c.g).numCells,
        (st.world.bodies c.p).nodeMass c.ker (sv.domains c.g) j * gridAccel st.mech.forces gravs c.g a := by
    intro c hc hs
    obtain ⟨s, e1, hgc, -, -⟩ := S.body c hc hs
    rw [e1, ← Finset.sum_mul]
    congr 1
    exact (sum_nodeMass hgc s.mass).symm
  rw [activeSum_congr _ _ _ hMass,
    ← sum_gridSum sv.couplings (fun g c => ∑ j ∈ Finset.range (sv.domains g).numCells,
        ((st.world.bodies c.p).nodeMass c.ker (sv.domains c.g) j *
          (nodeVel uslCutoff ((grids g).mass j) ((grids g).momentNt j a) -
            sv.alpha * nodeVel uslCutoff ((grids g).mass j) ((grids g).moment j a)) +
          (sv.alpha - 1) * (st.world.bodies c.p).nodeMoment c.ker (sv.domains c.g) j a)),
    ← sum_gridSum sv.couplings (fun g c => ∑ j ∈ Finset.range (sv.domains g).numCells,
        (st.world.bodies c.p).nodeMass c.ker (sv.domains c.g) j * gridAccel st.mech.forces gravs g a),
    Finset.mul_sum]
  refine Finset.sum_congr rfl fun g _ => ?_
  rw [← gridSum_sum, ← gridSum_sum]
  simp only [gridSum_add, mul_comm (sv.alpha - 1), ← gridSum_mul, ← S.mass, ← S.moment]
  have key : ∀ j, (grids g).mass j * (nodeVel uslCutoff ((grids g).mass j) ((grids g).momentNt j a) -
        sv.alpha * nodeVel uslCutoff ((grids g).mass j) ((grids g).moment j a)) +
      (grids g).moment j a * (sv.alpha - 1) =
      st.dt * f g j a + st.dt * ((grids g).mass j * gridAccel st.mech.forces gravs g a) := by
    intro j
    rcases (S.mass_nonneg g j).eq_or_lt with h0 | h0
    · obtain ⟨e1, e2⟩ := S.empty g j h0.symm a
      rw [← h0, e1, e2]; ring
    · have hcut := hr.cutoff g j
      rw [← S.mass] at hcut
      have hcut := hcut h0
      obtain ⟨c, hc, hs, rfl⟩ := gridSum_ne_zero sv.couplings g _ (by rw [← S.mass g j]; exact h0.ne')
      have e1 := mul_nodeVel (m := (grids c.g).mass j) (mom := (grids c.g).momentNt j a) hcut h0
      have e2 := mul_nodeVel (m := (grids c.g).mass j) (mom := (grids c.g).moment j a) hcut h0
      have e3 : (grids c.g).momentNt j a = (grids c.g).moment j a + (grids c.g).force j a * st.dt := by
        rw [S.momentNt c hc hs]
      rw [S.force] at e3
      linear_combination e1 - sv.alpha * e2 + e3
  simp only [key]
  rw [Finset.sum_add_distrib, ← Finset.mul_sum, S.force_sum, mul_zero, zero_add, Finset.mul_sum]

/-- What one USL step leaves alone. -/
theorem usl_step_constants (gravs : List (List (Fin z.G) × ℕ)) (hdim : dim = 2 ∨ dim = 3)
    (hforces : sv.forces = gravityList gravs) (hL : ∀ c, (sv.laws c).OnlyStress)
    {st st' : SimState z K dim SS LS (ForceState K dim)}
    (h : uslCall fn sv st = .ok st') (hr : Regular uslCutoff sv st.world) :
    st'.mech.forces = st.mech.forces ∧ st'.dt = st.dt ∧
      ∀ p, bodyMass (st'.world.bodies p) = bodyMass (st.world.bodies p) := by
  obtain ⟨grids, f, x3, x4, S⟩ := usl_stages gravs hdim hforces h hr
  have hlaw := law_fold hL st.dt sv.couplings x3 x4 S.law
  refine ⟨by rw [S.mech', hlaw.1, S.mech], S.dt', fun p => ?_⟩
  rw [S.world', (bodyMomentum_rel (hlaw.2 p)).2]
  by_cases hp : ∃ c ∈ sv.couplings, c.skip = false ∧ c.p = p
  · obtain ⟨c, hc, hs, rfl⟩ := hp
    obtain ⟨s, e1, -, -, e2⟩ := S.body c hc hs
    rw [e1, e2]; rfl
  · rcases S.other p (fun c hc hs e => hp ⟨c, hc, hs, e⟩) with e | ⟨s, e1, e2⟩
    · rw [e]
    · rw [e1, e2]; rfl

/-- The state of the run after `i` steps. -/
def Spec.AlongRun (fn : MathFns K) (sv : Solver z K dim SS LS (ForceState K dim)) (n : ℕ)
    (st : SimState z K dim SS LS (ForceState K dim)) (P : World z K dim SS → Prop) : Prop :=
  ∀ i < n, ∀ si, runSteps (uslCall fn sv) i st = .ok si → P si.world

/-- `n` USL steps under gravity. -/
theorem usl_run_momentum (gravs : List (List (Fin z.G) × ℕ)) (hdim : dim = 2 ∨ dim = 3)
    (hforces : sv.forces = gravityList gravs) (hL : ∀ c, (sv.laws c).OnlyStress) (n : ℕ)
    {st st' : SimState z K dim SS LS (ForceState K dim)}
    (h : runSteps (uslCall fn sv) n st = .ok st') (hr : AlongRun fn sv n st (Regular uslCutoff sv)) :
    st'.mech.forces = st.mech.forces ∧ st'.dt = st.dt ∧
      (∀ p, bodyMass (st'.world.bodies p) = bodyMass (st.world.bodies p)) ∧
    ∀ a, totalMomentum st'.world a = totalMomentum st.world a +
      n * st.dt * activeSum sv.couplings
        (fun c => bodyMass (st.world.bodies c.p) * gridAccel st.mech.forces gravs c.g a) := by
  induction n generalizing st' with
  | zero =>
    have : st = st' := by simpa [runSteps] using h
    subst this
    exact ⟨rfl, rfl, fun _ => rfl, fun a => by simp⟩
  | succ n ih =>
    obtain ⟨s1, h1, h2⟩ := runSteps_succ_ok.mp h
    obtain ⟨e1, e2, e3, e4⟩ := ih h1 (fun i hi => hr i (by omega))
    have hreg := hr n (by omega) s1 h1
    obtain ⟨d1, d2, d3⟩ := usl_step_constants gravs hdim hforces hL h2 hreg
    refine ⟨d1.trans e1, d2.trans e2, fun p => (d3 p).trans (e3 p), fun a => ?_⟩
    rw [usl_step_momentum gravs hdim hforces hL h2 hreg a, e4 a, e1, e2]
    simp only [e3]
    push_cast
    ring

/-- Under one gravity acting once on every active grid the momentum after `n` steps is `P0 + n dt M g`. -/
theorem usl_run_weight (gs : List (Fin z.G)) (i : ℕ) (v : Fin dim → K) (hdim : dim = 2 ∨ dim = 3)
    (hforces : sv.forces = [gravityForce true [] gs i]) (hL : ∀ c, (sv.laws c).OnlyStress) (n : ℕ)
    {st st' : SimState z K dim SS LS (ForceState K dim)} (hv : st.mech.forces[i]? = some (.gravity v))
    (hgs : ∀ c ∈ sv.couplings, c.skip = false → gs.count c.g = 1)
    (h : runSteps (uslCall fn sv) n st = .ok st') (hr : AlongRun fn sv n st (Regular uslCutoff sv)) (a : Fin dim) :
    totalMomentum st'.world a = totalMomentum st.world a +
      n * st.dt * activeSum sv.couplings (fun c => bodyMass (st.world.bodies c.p)) * v a := by
  have hm := (usl_run_momentum [(gs, i)] hdim hforces hL n h hr).2.2.2 a
  have he : activeSum sv.couplings (fun c => bodyMass (st.world.bodies c.p) * gridAccel st.mech.forces [(gs, i)] c.g a) =
      activeSum sv.couplings (fun c => v a * bodyMass (st.world.bodies c.p)) :=
    activeSum_congr sv.couplings _ _ fun c hc hs => by simp [gridAccel, hgs c hc hs, hv, mul_comm]
  rw [hm, he, ← activeSum_mul]
  ring

/-! ### Rigid translation -/

/-- A law that stays at rest: from zero stress and zero velocity gradient it returns zero stress. `Q` is a condition on
the stored variables of the law. -/
def Spec.StaysAtRest (Q : LS → Prop) (l : Law K dim LS) : Prop :=
  ∀ {n : ℕ} (s : MPState K dim n) (ls : LS) (dt : K) (r : MPState K dim n × LS), Q ls → (∀ p, s.L p = 0) →
    (∀ p, s.stress p = 0) → l.update s ls dt = .ok r → (∀ p, r.1.stress p = 0) ∧ Q r.2

/-- A stress-free body whose points all move with velocity `u`, with consistent volume (and plane `F` in 2D). -/
structure Spec.Translating {n : ℕ} (u : Fin dim → K) (s : MPState K dim n) : Prop where
  velocity : ∀ p, s.velocity p = u
  stress : ∀ p, s.stress p = 0
  plane : dim = 2 → ∀ p, s.F p 2 2 = 1
  volume : ∀ p, s.volume p = (s.F p).det * s.volume0 p

/-- `s'` is `s` moved by `d`, at rest in its own frame. -/
structure Spec.Moved {n : ℕ} (d : Fin dim → K) (s s' : MPState K dim n) : Prop where
  position : ∀ p, s'.position p = s.position p + d
  velocity : s'.velocity = s.velocity
  F : s'.F = s.F
  volume : s'.volume = s.volume
  volume0 : s'.volume0 = s.volume0
  mass : s'.mass = s.mass
  stress : s'.stress = s.stress

theorem gridSum_term_zero (cs : List (Coupling z)) (g : Fin z.G) (f : Coupling z → K)
    (h0 : ∀ c ∈ cs, c.skip = false → 0 ≤ f c) (h : gridSum cs g f = 0) :
    ∀ c ∈ cs, c.skip = false → c.g = g → f c = 0 := by
  have nonneg : ∀ l : List (Coupling z), (∀ c ∈ l, c.skip = false → 0 ≤ f c) → 0 ≤ gridSum l g f := by
    intro l hl
    refine List.sum_nonneg fun x hx => ?_
    obtain ⟨d, hd, rfl⟩ := List.mem_map.mp hx
    split_ifs with hh
    · exact hl d hd hh.1
    · exact le_rfl
  induction cs with
  | nil => intro c hc; simp at hc
  | cons d cs ih =>
    have hn := nonneg cs fun c hc => h0 c (by simp [hc])
    rw [gridSum_cons] at h
    have hd : 0 ≤ if d.skip = false ∧ d.g = g then f d else 0 := by
      split_ifs with hh
      · exact h0 d (by simp) hh.1
      · exact le_rfl
    intro c hc hs hg
    rcases List.mem_cons.mp hc with rfl | hc
    · rw [if_pos ⟨hs, hg⟩] at h hd
      linarith
    · exact ih (fun c hc => h0 c (by simp [hc])) (by linarith) c hc hs hg

theorem set22_self {A : Mat3 K} {v : K} (h : A 2 2 = v) : set22 A v = A := by
  subst h
  funext i j
  simp only [set22]
  split_ifs with hh
  · rw [hh.1, hh.2]
  · rfl

theorem scatter_uniform {n w : ℕ} (c : InteractionCache K n w) (m : Fin n → K) (u : K) (j : ℕ) :
    scatterAdd c.nodeHash (fun i => c.shapeVal i * m (c.pointId i) * u) j = nodeMass c m j * u := by
  simp only [nodeMass, scatterAdd, Finset.sum_mul, ite_mul, zero_mul]

/-- Gathering a uniform nodal velocity. -/
theorem g2p_uniform {n w N : ℕ} {c : InteractionCache K n w} (hc : GoodCache c N) (alpha dt : K) (gr : GridArrays K dim)
    (s : MPState K dim n) (u : Fin dim → K) (hs : Translating u s)
    (hv : ∀ i a, c.shapeVal i ≠ 0 → nodeVel uslCutoff (gr.mass (c.nodeHash i)) (gr.moment (c.nodeHash i) a) = u a ∧
      nodeVel uslCutoff (gr.mass (c.nodeHash i)) (gr.momentNt (c.nodeHash i) a) = u a) :
    Moved (dt • u) s (g2pBody alpha dt c none gr s) ∧ ∀ p, (g2pBody alpha dt c none gr s).L p = 0 := by
  have hw : ∀ i a, c.shapeVal i * nodeVel uslCutoff (gr.mass (c.nodeHash i)) (gr.momentNt (c.nodeHash i) a) =
      u a * c.shapeVal i := by
    intro i a
    by_cases h0 : c.shapeVal i = 0
    · rw [h0]; simp
    · rw [(hv i a h0).2]; ring
  have hd : ∀ i a, c.shapeVal i * (nodeVel uslCutoff (gr.mass (c.nodeHash i)) (gr.momentNt (c.nodeHash i) a) -
      nodeVel uslCutoff (gr.mass (c.nodeHash i)) (gr.moment (c.nodeHash i) a)) = 0 := by
    intro i a
    by_cases h0 : c.shapeVal i = 0
    · rw [h0]; simp
    · rw [(hv i a h0).1, (hv i a h0).2]; ring
  have hg : ∀ i j k, c.shapeGrad i j * -(pad3 (fun a => nodeVel uslCutoff (gr.mass (c.nodeHash i))
      (gr.momentNt (c.nodeHash i) a)) k) = -(pad3 u k) * c.shapeGrad i j := by
    intro i j k
    by_cases h0 : c.shapeVal i = 0
    · rw [hc.grad_zero i h0 j]; simp
    · rw [show (fun a => nodeVel uslCutoff (gr.mass (c.nodeHash i)) (gr.momentNt (c.nodeHash i) a)) = u from
        funext fun a => (hv i a h0).2]
      ring
  have hvel : ∀ p a, pointSum c (fun i => c.shapeVal i * nodeVel uslCutoff (gr.mass (c.nodeHash i))
      (gr.momentNt (c.nodeHash i) a)) p = u a := by
    intro p a
    simp only [hw, pointSum_mul, hc.sum_val, mul_one]
  have hL : ∀ p, (g2pBody alpha dt c none gr s).L p = 0 := by
    intro p
    have h0 : (fun j k => pointSum c (fun i => c.shapeGrad i j * -(pad3 (fun a => nodeVel uslCutoff
        (gr.mass (c.nodeHash i)) (gr.momentNt (c.nodeHash i) a)) k)) p : Mat3 K) = 0 := by
      funext j k
      simp only [hg, pointSum_mul, hc.sum_grad, mul_zero]
      rfl
    simp only [g2pBody, ghostBlend]
    rw [h0]
    have hz : set22 (0 : Mat3 K) 0 = 0 := set22_self rfl
    exact (congrArg (fun M => if dim = 2 then M else 0) hz).trans (ite_self _)
  have hF : (g2pBody alpha dt c none gr s).F = s.F := by
    funext p
    have : (g2pBody alpha dt c none gr s).F p = if dim = 2 then
        set22 ((1 - dt • (g2pBody alpha dt c none gr s).L p) * s.F p) 1
      else (1 - dt • (g2pBody alpha dt c none gr s).L p) * s.F p := rfl
    rw [this, hL p, smul_zero, sub_zero, one_mul]
    split_ifs with h2
    · exact set22_self (hs.plane h2 p)
    · rfl
  refine ⟨⟨?_, ?_, hF, ?_, rfl, rfl, rfl⟩, hL⟩
  · intro p
    funext a
    simp only [g2pBody, ghostBlend, hvel, Pi.add_apply, Pi.smul_apply, smul_eq_mul]
    ring
  · funext p a
    simp only [g2pBody, ghostBlend, hvel, hd, hs.velocity]
    rw [show pointSum c (fun _ => (0 : K)) p = 0 from pointSum_zero c _ (fun _ => rfl) p]
    ring
  · funext p
    have : (g2pBody alpha dt c none gr s).volume p = ((g2pBody alpha dt c none gr s).F p).det * s.volume0 p := rfl
    rw [this, hF, hs.volume p]

theorem law_fold_rest {Q : Fin z.C → LS → Prop} (hL : ∀ c, (sv.laws c).OnlyStress)
    (hrest : ∀ c, StaysAtRest (Q c) (sv.laws c)) (hreset : ∀ c, (sv.laws c).requiresFReset = false) (dt : K)
    (cs : List (Coupling z)) (x x' : Ctx z K dim SS LS (ForceState K dim))
    (h : foldE (lawCoupling fn sv.laws dt) x cs = .ok x') (hQ : ∀ c, Q c (x.mech.laws c))
    (hx : ∀ c ∈ cs, c.skip = false → ∀ s, x.world.bodies c.p = .deformable s → ∀ q, s.L q = 0 ∧ s.stress q = 0) :
    (∀ c, Q c (x'.mech.laws c)) ∧
    ∀ p s, x.world.bodies p = .deformable s → x'.world.bodies p = .deformable s := by
  induction cs generalizing x with
  | nil =>
    have : x = x' := by simpa [foldE] using h
    exact this ▸ ⟨hQ, fun _ _ e => e⟩
  | cons c cs ih =>
    obtain ⟨x1, h1, h2⟩ := foldE_cons_ok.mp h
    cases hs : c.skip with
    | true =>
      rw [lawCoupling_skip hs h1] at h2
      exact ih x h2 hQ fun d hd => hx d (by simp [hd])
    | false =>
      obtain ⟨s, r, hb, hr, rfl⟩ := lawCoupling_ok hs h1
      have hz := hx c (by simp) hs s hb
      obtain ⟨r1, r2⟩ := hrest c.c s _ dt r (hQ c.c) (fun q => (hz q).1) (fun q => (hz q).2) hr
      have hrs : r.1 = s := by
        have := hL c.c s _ dt r hr
        rw [this]
        have e : r.1.stress = s.stress := funext fun q => (r1 q).trans (hz q).2.symm
        rw [e]
      have hsb : removeShear fn (sv.laws c.c).requiresFReset r.1 = s := by
        rw [hreset c.c, hrs]; rfl
      rw [hsb] at h2
      have hbod : ∀ p, (x.setBody c.p (.deformable s)).world.bodies p = x.world.bodies p := by
        intro p
        by_cases hp : p = c.p
        · subst hp; rw [setBody_self, hb]
        · exact setBody_ne _ hp _
      have i := ih _ h2 (by
        intro d
        by_cases hd : d = c.c
        · subst hd; simpa using r2
        · simpa [hd] using hQ d) (by
        intro d hd hsd t ht
        exact hx d (by simp [hd]) hsd t ((hbod d.p).symm.trans ht))
      exact ⟨i.1, fun p t ht => i.2 p t ((hbod p).trans ht)⟩

/-- All bodies of the scene translate with the velocity of their grid, and the laws are at rest. -/
structure Spec.SceneTranslating (sv : Solver z K dim SS LS (ForceState K dim)) (Q : Fin z.C → LS → Prop)
    (u : Fin z.G → Fin dim → K) (st : SimState z K dim SS LS (ForceState K dim)) : Prop where
  bodies : ∀ c ∈ sv.couplings, c.skip = false → ∀ s, st.world.bodies c.p = .deformable s → Translating (u c.g) s
  laws : ∀ c, Q c (st.mech.laws c)

theorem usl_step_translation {Q : Fin z.C → LS → Prop} (u : Fin z.G → Fin dim → K) (hdim : dim = 2 ∨ dim = 3)
    (hforces : sv.forces = []) (hL : ∀ c, (sv.laws c).OnlyStress)
    (hrest : ∀ c, StaysAtRest (Q c) (sv.laws c)) (hreset : ∀ c, (sv.laws c).requiresFReset = false)
    {st st' : SimState z K dim SS LS (ForceState K dim)}
    (h : uslCall fn sv st = .ok st') (hr : Regular uslCutoff sv st.world) (ht : SceneTranslating sv Q u st) :
    SceneTranslating sv Q u st' ∧ st'.dt = st.dt ∧
    ∀ c ∈ sv.couplings, c.skip = false → ∃ s s', st.world.bodies c.p = .deformable s ∧
      st'.world.bodies c.p = .deformable s' ∧ Moved (st.dt • u c.g) s s' ∧ ∀ p, s'.L p = 0 := by
  obtain ⟨grids, f, x3, x4, S⟩ := usl_stages (gravs := []) hdim hforces h hr
  have hf := S.stressfree fun c hc hs s hb q => (ht.bodies c hc hs s hb).stress q
  have hforce : ∀ g j a, (grids g).force j a = 0 := by
    intro g j a
    rw [S.force, hf]
    simp [gridAccel]
  have hmom : ∀ g j a, (grids g).moment j a = (grids g).mass j * u g a := by
    intro g j a
    rw [S.moment, S.mass, gridSum_mul]
    refine gridSum_congr _ _ _ _ fun c hc hs hg => ?_
    obtain ⟨s, e1, -, -, -⟩ := S.body c hc hs
    rw [e1]
    have hvel := (ht.bodies c hc hs s e1).velocity
    simp only [Body.nodeMoment, Body.nodeMass, hvel, hg]
    exact scatter_uniform _ _ _ _
  have hnonneg : ∀ j, ∀ c ∈ sv.couplings, c.skip = false →
      0 ≤ (st.world.bodies c.p).nodeMass c.ker (sv.domains c.g) j := by
    intro j c hc hs
    obtain ⟨s, e1, hgc, hm, -⟩ := S.body c hc hs
    rw [e1]
    exact nodeMass_nonneg hgc s.mass (fun q => (hm q).le) j
  have hbody : ∀ c ∈ sv.couplings, c.skip = false → ∃ s s', st.world.bodies c.p = .deformable s ∧
      x3.world.bodies c.p = .deformable s' ∧ Moved (st.dt • u c.g) s s' ∧ ∀ p, s'.L p = 0 := by
    intro c hc hs
    obtain ⟨s, e1, hgc, hm, e2⟩ := S.body c hc hs
    have htr := ht.bodies c hc hs s e1
    have htr' : Translating (u c.g) (resetBody s) := ⟨htr.velocity, htr.stress, htr.plane, htr.volume⟩
    obtain ⟨m1, m2⟩ := g2p_uniform hgc sv.alpha st.dt (grids c.g) (resetBody s) (u c.g) htr' (by
      intro i a h0
      set j := (compute c.ker (sv.domains c.g) s.position).nodeHash i with hj
      have hpos : 0 < (grids c.g).mass j := by
        refine lt_of_le_of_ne (S.mass_nonneg _ _) fun e => h0 ?_
        have hz := gridSum_term_zero sv.couplings c.g _ (hnonneg j) ((S.mass c.g j).symm.trans e.symm) c hc hs rfl
        rw [e1] at hz
        exact val_zero_of_nodeMass hgc s.mass hm j hz i rfl
      have hcut : uslCutoff < (grids c.g).mass j := by
        have := hr.cutoff c.g j
        rw [← S.mass] at this
        exact this hpos
      have hnt : (grids c.g).momentNt j a = (grids c.g).moment j a := by
        rw [S.momentNt c hc hs]
        simp [hforce]
      rw [hnt, and_self, hmom]
      unfold nodeVel
      rw [if_pos hcut, if_pos hcut, mul_div_cancel_left₀ _ hpos.ne'])
    exact ⟨s, _, e1, e2, ⟨m1.position, m1.velocity, m1.F, m1.volume, m1.volume0, m1.mass, m1.stress⟩, m2⟩
  obtain ⟨l1, l2⟩ := law_fold_rest hL hrest hreset st.dt sv.couplings x3 x4 S.law
    (by rw [S.mech]; exact ht.laws) (by
      intro c hc hs t hb q
      obtain ⟨s, s', e1, e2, m, hz⟩ := hbody c hc hs
      rw [hb] at e2
      cases e2
      exact ⟨hz q, by rw [m.stress]; exact (ht.bodies c hc hs s e1).stress q⟩)
  have hfin : ∀ c ∈ sv.couplings, c.skip = false → ∃ s s', st.world.bodies c.p = .deformable s ∧
      st'.world.bodies c.p = .deformable s' ∧ Moved (st.dt • u c.g) s s' ∧ ∀ p, s'.L p = 0 := by
    intro c hc hs
    obtain ⟨s, s', e1, e2, m, hz⟩ := hbody c hc hs
    exact ⟨s, s', e1, by rw [S.world']; exact l2 _ _ e2, m, hz⟩
  refine ⟨⟨?_, by rw [S.mech']; exact l1⟩, S.dt', hfin⟩
  intro c hc hs t hb
  obtain ⟨s, s', e1, e2, m, -⟩ := hfin c hc hs
  rw [hb] at e2
  cases e2
  have htr := ht.bodies c hc hs s e1
  exact ⟨fun p => by rw [m.velocity]; exact htr.velocity p, fun p => by rw [m.stress]; exact htr.stress p,
    fun h2 p => by rw [m.F]; exact htr.plane h2 p, fun p => by rw [m.volume, m.F, m.volume0]; exact htr.volume p⟩

/-- Rigid translation is preserved over any number of steps: the bodies are moved by `n dt u` and nothing else changes. -/
theorem usl_run_translation {Q : Fin z.C → LS → Prop} (u : Fin z.G → Fin dim → K) (hdim : dim = 2 ∨ dim = 3)
    (hforces : sv.forces = []) (hL : ∀ c, (sv.laws c).OnlyStress)
    (hrest : ∀ c, StaysAtRest (Q c) (sv.laws c)) (hreset : ∀ c, (sv.laws c).requiresFReset = false) (n : ℕ)
    {st st' : SimState z K dim SS LS (ForceState K dim)} (h : runSteps (uslCall fn sv) (n + 1) st = .ok st')
    (hr : AlongRun fn sv (n + 1) st (Regular uslCutoff sv)) (ht : SceneTranslating sv Q u st) :
    SceneTranslating sv Q u st' ∧ st'.dt = st.dt ∧
    ∀ c ∈ sv.couplings, c.skip = false → ∃ s s', st.world.bodies c.p = .deformable s ∧
      st'.world.bodies c.p = .deformable s' ∧ Moved (((n + 1 : ℕ) * st.dt) • u c.g) s s' ∧ ∀ p, s'.L p = 0 := by
  induction n generalizing st' with
  | zero =>
    obtain ⟨s1, h1, h2⟩ := runSteps_succ_ok.mp h
    have : st = s1 := by simpa [runSteps] using h1
    subst this
    have := usl_step_translation u hdim hforces hL hrest hreset h2 (hr 0 (by omega) _ h1) ht
    simpa using this
  | succ n ih =>
    obtain ⟨s1, h1, h2⟩ := runSteps_succ_ok.mp h
    obtain ⟨t1, d1, b1⟩ := ih h1 (fun i hi => hr i (by omega))
    obtain ⟨t2, d2, b2⟩ := usl_step_translation u hdim hforces hL hrest hreset h2 (hr (n + 1) (by omega) _ h1) t1
    refine ⟨t2, d2.trans d1, fun c hc hs => ?_⟩
    obtain ⟨s, s', e1, e2, m, -⟩ := b1 c hc hs
    obtain ⟨t, t', f1, f2, m', hz⟩ := b2 c hc hs
    rw [e2] at f1
    cases f1
    refine ⟨s, t', e1, f2, ⟨fun p => ?_, m'.velocity.trans m.velocity, m'.F.trans m.F, m'.volume.trans m.volume,
      m'.volume0.trans m.volume0, m'.mass.trans m.mass, m'.stress.trans m.stress⟩, hz⟩
    rw [m'.position, m.position, d1, add_assoc, ← add_smul]
    congr 2
    push_cast
    ring

end

/-! ### Concrete scenes -/

/-- Decidable form of the side conditions for the example scene. -/
def exRegularB (cut : ℚ) (w : World exSz ℚ 2 Unit) : Bool :=
  match w.bodies (0 : Fin 1) with
  | .rigid _ => false
  | .deformable s =>
    (List.finRange 2).all (fun q => (List.finRange 2).all fun d => 0 ≤ s.position q d ∧ s.position q d ≤ 1) &&
    (List.finRange 2).all (fun q => 0 < s.mass q) &&
    (List.range 49).all fun j =>
      let m := nodeMass (compute .linear (GridDomain.create (fun _ => 0) (fun _ => 1) (1 / 2) 2) s.position) s.mass j
      m ≤ 0 || cut < m

theorem exRegular {cut : ℚ} {reset : Bool} {w : World exSz ℚ 2 Unit} (h : exRegularB cut w = true) :
    Regular cut (exSolver .linear reset) w := by
  unfold exRegularB at h
  cases hb : w.bodies (0 : Fin 1) with
  | rigid r => rw [hb] at h; simp at h
  | deformable s =>
    rw [hb] at h
    simp only [Bool.and_eq_true, List.all_eq_true, List.mem_finRange, decide_eq_true_eq, true_implies, List.mem_range,
      Bool.or_eq_true] at h
    obtain ⟨⟨h1, h2⟩, h3⟩ := h
    have hbox : ∀ q, InBox (fun _ => (0 : ℚ)) (fun _ => 1) (s.position q) := fun q d => h1 q d
    have hgc := goodCache_of_inBox (.inl rfl) .linear (fun _ => (0 : ℚ)) (fun _ => 1) (1 / 2) (by norm_num) 2 (by norm_num)
      s.position hbox
    have hN : (GridDomain.create (fun _ : Fin 2 => (0 : ℚ)) (fun _ => 1) (1 / 2) 2).numCells = 49 := by decide +kernel
    refine ⟨by simp [exSolver], ?_, ?_, ?_⟩
    · intro c hc _
      obtain rfl : c = exCoupling .linear := by simpa [exSolver] using hc
      refine ⟨fun _ => 0, fun _ => 1, 1 / 2, 2, by norm_num, by norm_num, rfl, ?_⟩
      change ∀ q, InBox _ _ ((w.bodies (0 : Fin 1)).position q)
      rw [hb]
      exact hbox
    · intro c hc _ t ht
      obtain rfl : c = exCoupling .linear := by simpa [exSolver] using hc
      have ht : w.bodies (0 : Fin 1) = .deformable t := ht
      rw [hb] at ht
      cases ht
      exact h2
    · intro g j
      have hsum : gridSum (exSolver .linear reset).couplings g
          (fun c => (w.bodies c.p).nodeMass c.ker ((exSolver .linear reset).domains c.g) j) =
          nodeMass (compute .linear (GridDomain.create (fun _ => 0) (fun _ => 1) (1 / 2) 2) s.position) s.mass j := by
        have hg : g = (0 : Fin 1) := Subsingleton.elim _ _
        subst hg
        simp only [exSolver, gridSum, List.map_cons, List.map_nil, List.sum_cons, List.sum_nil, add_zero]
        rw [if_pos ⟨rfl, rfl⟩]
        change (w.bodies (0 : Fin 1)).nodeMass _ _ _ = _
        rw [hb]
        rfl
      rw [hsum]
      intro h0
      by_cases hj : j < 49
      · rcases h3 j hj with h | h
        · exact absurd h0 (not_lt.mpr h)
        · exact h
      · exfalso
        have : nodeMass (compute .linear (GridDomain.create (fun _ => 0) (fun _ => 1) (1 / 2) 2) s.position) s.mass j = 0 :=
          scatterAdd_eq_zero _ _ _ fun i hi => absurd (hN ▸ hi ▸ hgc.hash_lt i) hj
        exact h0.ne' this

/-- A property of the state reached, if one is reached. -/
def checkOk {α : Type*} (r : Except PyErr α) (P : α → Bool) : Bool :=
  match r with
  | .ok a => P a
  | .error _ => true

theorem checkOk_ok {α : Type*} {r : Except PyErr α} {P : α → Bool} (h : checkOk r P = true) (a : α) (ha : r = .ok a) :
    P a = true := by
  subst ha; exact h

def exRun2 : Except PyErr (SimState exSz ℚ 2 Unit (LawState ℚ) (ForceState ℚ 2)) :=
  runSteps (uslCall ratFns (exSolver .linear false)) 2 exState

set_option maxRecDepth 100000 in
theorem exRun2_ok : exRun2.isOk = true := by decide +kernel

set_option maxRecDepth 100000 in
theorem exRun1_regular : checkOk (runSteps (uslCall ratFns (exSolver .linear false)) 1 exState)
    (fun s => exRegularB uslCutoff s.world) = true := by decide +kernel

set_option maxRecDepth 100000 in
theorem exState_regular : exRegularB uslCutoff exState.world = true := by decide +kernel

theorem exAlong : AlongRun ratFns (exSolver .linear false) 2 exState (Regular uslCutoff (exSolver .linear false)) := by
  intro i hi si hs
  obtain rfl | rfl : i = 0 ∨ i = 1 := by omega
  · have : exState = si := by simpa [runSteps] using hs
    exact this ▸ exRegular exState_regular
  · exact exRegular (checkOk_ok exRun1_regular si hs)

/-- `usl_run_weight` on two steps of the example scene: mass 3 under gravity -10 for 0.02. -/
example : ∃ st', exRun2 = .ok st' ∧ totalMomentum st'.world 1 = totalMomentum exState.world 1 + 2 * (1 / 100) * 3 * -10 := by
  obtain ⟨st', h⟩ := isOk_ok exRun2_ok
  refine ⟨st', h, ?_⟩
  have := usl_run_weight (sv := exSolver .linear false) [(0 : Fin 1)] 0 ![0, -10] (.inl rfl) rfl
    (fun _ => LibLaw.onlyStress (.elastic 1000 (1 / 4) false)) 2 rfl
    (fun c _ _ => by rw [show c.g = (0 : Fin 1) from Subsingleton.elim _ _]; rfl) h exAlong 1
  rw [this]
  have hm : activeSum (exSolver .linear false).couplings (fun c => bodyMass (exState.world.bodies c.p)) = 3 := by
    decide +kernel
  rw [hm]
  norm_num [exState]

/-- The example scene with a body a hundred trillion times lighter (and no forces). -/
def exLightSolver : Solver exSz ℚ 2 Unit (LawState ℚ) (ForceState ℚ 2) := { exSolver .linear false with forces := [] }

def exLightState : SimState exSz ℚ 2 Unit (LawState ℚ) (ForceState ℚ 2) :=
  { exState with
    world := { bodies := fun _ => .deformable { exBody with mass := ![1 / 10 ^ 14, 2 / 10 ^ 14] }, sdfs := Fin.elim0 }
    mech := { exState.mech with forces := [] } }

set_option maxRecDepth 100000 in
theorem exLight_eval : checkOk (uslCall ratFns exLightSolver exLightState)
    (fun s => totalMomentum s.world 0 ≠ totalMomentum exLightState.world 0) = true := by decide +kernel

set_option maxRecDepth 100000 in
theorem exLight_ok : (uslCall ratFns exLightSolver exLightState).isOk = true := by decide +kernel

/-- The hypothesis about the cutoff is needed: a force-free body in its box whose nodal masses are below the cutoff loses
momentum. -/
theorem momentum_cutoff_needed : ∃ st', uslCall ratFns exLightSolver exLightState = .ok st' ∧
    (∀ q, InBox (fun _ => 0) (fun _ => 1) ((exLightState.world.bodies (0 : Fin 1)).position q)) ∧
    totalMomentum st'.world 0 ≠ totalMomentum exLightState.world 0 := by
  obtain ⟨st', h⟩ := isOk_ok exLight_ok
  refine ⟨st', h, exBody_inBox, ?_⟩
  simpa using checkOk_ok exLight_eval st' h

/-- A stress-free body in rigid translation. -/
def exMovingState : SimState exSz ℚ 2 Unit (LawState ℚ) (ForceState ℚ 2) :=
  { exState with
    world := { bodies := fun _ => .deformable { exBody with velocity := fun _ => ![1, -2], stress := fun _ => 0 },
               sdfs := Fin.elim0 } }

/-- The linear elastic law stays at rest. -/
theorem elastic_staysAtRest {K : Type*} [Field K] [LinearOrder K] [IsStrictOrderedRing K] [FloorRing K] {dim : ℕ}
    (E nu : K) (reset : Bool) : StaysAtRest (fun _ => True) (elasticLaw E nu reset : Law K dim (LawState K)) := by
  intro n s ls dt r _ hL hs hr
  have := Except.ok.inj hr
  subst this
  refine ⟨fun p => ?_, trivial⟩
  simp only [hL, hs, elasticStress]
  funext i j
  simp [isoT]

/-- The example scene without forces. -/
def exFreeSolver : Solver exSz ℚ 2 Unit (LawState ℚ) (ForceState ℚ 2) := { exSolver .linear false with forces := [] }

theorem exFree_regular {cut : ℚ} {w : World exSz ℚ 2 Unit} (h : exRegularB cut w = true) : Regular cut exFreeSolver w := by
  have := exRegular (reset := false) h
  exact ⟨this.single, this.box, this.mass_pos, this.cutoff⟩

set_option maxRecDepth 100000 in
theorem exMoving_ok : (runSteps (uslCall ratFns exFreeSolver) 2 exMovingState).isOk = true := by decide +kernel

set_option maxRecDepth 100000 in
theorem exMoving_regular : exRegularB uslCutoff exMovingState.world = true ∧
    checkOk (runSteps (uslCall ratFns exFreeSolver) 1 exMovingState) (fun s => exRegularB uslCutoff s.world) = true := by
  decide +kernel

/-- `usl_run_translation` on two steps of the moving body. -/
example : ∃ st' s', runSteps (uslCall ratFns exFreeSolver) 2 exMovingState = .ok st' ∧
    st'.world.bodies (0 : Fin 1) = .deformable s' ∧ s'.position 0 = ![1 / 3, 9 / 10] + (2 * (1 / 100) : ℚ) • ![1, -2] ∧
    s'.velocity 0 = ![1, -2] := by
  obtain ⟨st', h⟩ := isOk_ok exMoving_ok
  have hr : AlongRun ratFns exFreeSolver 2 exMovingState (Regular uslCutoff exFreeSolver) := by
    intro i hi si hs
    obtain rfl | rfl : i = 0 ∨ i = 1 := by omega
    · have : exMovingState = si := by simpa [runSteps] using hs
      exact this ▸ exFree_regular exMoving_regular.1
    · exact exFree_regular (checkOk_ok exMoving_regular.2 si hs)
  have ht : SceneTranslating exFreeSolver (fun _ _ => True) (fun _ => ![1, -2]) exMovingState := by
    refine ⟨fun c hc _ s hb => ?_, fun _ => trivial⟩
    obtain rfl : c = exCoupling .linear := by simpa [exFreeSolver, exSolver] using hc
    have hb := Body.deformable.inj hb
    subst hb
    refine ⟨fun _ => rfl, fun _ => rfl, fun _ p => ?_, fun p => ?_⟩
    · simp [exBody, MPState.create]
    · simp [exBody, MPState.create]
  obtain ⟨-, -, hb⟩ := usl_run_translation (fun _ => ![1, -2]) (.inl rfl) rfl
    (fun _ => LibLaw.onlyStress (.elastic 1000 (1 / 4) false)) (fun _ => elastic_staysAtRest 1000 (1 / 4) false)
    (fun _ => rfl) 1 h hr ht
  obtain ⟨s, s', e1, e2, m, -⟩ := hb (exCoupling .linear) (by simp [exFreeSolver, exSolver]) rfl
  have e1 := Body.deformable.inj e1
  subst e1
  exact ⟨st', s', h, e2, by rw [m.position 0]; rfl, by rw [m.velocity]⟩

end Hydrax
