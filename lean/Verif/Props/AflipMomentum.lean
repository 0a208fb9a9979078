import Verif.Props.Momentum
import Verif.Props.SharedGrid
import Verif.Lemmas.TransferBox
import Verif.Lemmas.RealFns

/-!
# Properties C11, C21: momentum of an AFLIP step and its speed limit
-/

set_option linter.unusedSectionVars false

namespace Hydrax
open Spec

section
variable {z : Sz} {K : Type*} [Field K] [LinearOrder K] [IsStrictOrderedRing K] [FloorRing K] {dim : ℕ}
  {SS LS : Type*} {fn : MathFns K} {sv : Solver z K dim SS LS (ForceState K dim)}

theorem gridSum_filter (cs : List (Coupling z)) (g : Fin z.G) (f : Coupling z → K) :
    ((cs.filter fun c => !c.skip && decide (c.g = g)).map f).sum = gridSum cs g f := by
  induction cs with
  | nil => simp [gridSum]
  | cons c cs ih =>
    rw [gridSum_cons, ← ih]
    by_cases hs : c.skip = true
    · simp [hs]
    · by_cases hg : c.g = g <;> simp [hs, hg]

theorem gridSum_nonneg (cs : List (Coupling z)) (g : Fin z.G) (f : Coupling z → K)
    (h0 : ∀ c ∈ cs, c.skip = false → 0 ≤ f c) : 0 ≤ gridSum cs g f := by
  refine List.sum_nonneg fun x hx => ?_
  obtain ⟨d, hd, rfl⟩ := List.mem_map.mp hx
  split_ifs with hh
  · exact h0 d hd hh.1
  · exact le_rfl

theorem gridSum_zero (cs : List (Coupling z)) (g : Fin z.G) (f : Coupling z → K)
    (h0 : ∀ c ∈ cs, c.skip = false → c.g = g → f c = 0) : gridSum cs g f = 0 := by
  rw [gridSum_congr cs g f (fun _ => 0) h0]
  simp [gridSum]

/-- The gather of an AFLIP step. -/
theorem aflip_g2p_fold (pr : AflipParams K) (dt : K) (dom : Fin z.G → GridDomain K dim) (cs : List (Coupling z))
    (hn : (cs.map (·.p)).Nodup) (x x' : Ctx z K dim SS LS (ForceState K dim)) (hl : HasLists dom x cs)
    (h : foldE (aflipG2pCoupling fn pr dom dt) x cs = .ok x') :
    x'.cache = x.cache ∧ x'.mech.forces = x.mech.forces ∧
    (∀ c ∈ cs, c.skip = false → ∃ s, x.world.bodies c.p = .deformable s ∧ x'.world.bodies c.p = .deformable
      (aflipG2pMls fn.sqrt pr (dom c.g).cellSize dt (compute c.ker (dom c.g) s.position) (x.cache.grids c.g) s).1) ∧
    (∀ p, (∀ c ∈ cs, c.skip = false → c.p ≠ p) → x'.world.bodies p = x.world.bodies p) ∧
    x'.mech.laws = x.mech.laws ∧
    ((∀ i q, x.mech.solvers i q = 0) → (∀ c ∈ cs, c.skip = false → ∀ s, x.world.bodies c.p = .deformable s → ∀ q,
      (aflipG2pMls fn.sqrt pr (dom c.g).cellSize dt (compute c.ker (dom c.g) s.position) (x.cache.grids c.g) s).2 q = 0) →
      ∀ i q, x'.mech.solvers i q = 0) := by
  induction cs generalizing x with
  | nil =>
    have : x = x' := by simpa [foldE] using h
    subst this
    simp
  | cons c cs ih =>
    rw [List.map_cons, List.nodup_cons] at hn
    obtain ⟨x1, h1, h2⟩ := foldE_cons_ok.mp h
    have hbs : ∀ b ∈ cs, b.p ≠ c.p := fun b hb e => hn.1 (List.mem_map.mpr ⟨b, hb, e⟩)
    cases hs : c.skip with
    | true =>
      have := aflipG2pCoupling_skip hs h1
      subst this
      obtain ⟨i1, i2, i3, i4, i5, i6⟩ := ih hn.2 x1 (fun b hb => hl b (by simp [hb])) h2
      refine ⟨i1, i2, ?_, fun p hp => i4 p fun d hd => hp d (by simp [hd]), i5, fun h0 hz => i6 h0 fun d hd => hz d (by simp [hd])⟩
      intro b hb hbs'
      rcases List.mem_cons.mp hb with rfl | hb
      · rw [hs] at hbs'; exact absurd hbs' (by simp)
      · exact i3 b hb hbs'
    | false =>
      obtain ⟨ker, ic, s, r, hS, hic, hb, hr, rfl⟩ := aflipG2pCoupling_ok hs h1
      have hlc := hl c (by simp)
      rw [hic] at hlc
      have hpos : (x.world.bodies c.p).position = s.position := by rw [hb]; rfl
      rw [hpos] at hlc
      have hlc := Option.some.inj hlc
      have hr' : r = aflipG2pMls fn.sqrt pr (dom c.g).cellSize dt (compute c.ker (dom c.g) s.position)
          (x.cache.grids c.g) s := by
        unfold aflipG2pBody at hr
        split_ifs at hr
        cases hlc
        exact (Except.ok.inj hr).symm
      obtain ⟨i1, i2, i3, i4, i5, i6⟩ := ih hn.2 _ (by
        intro b hb'
        have := hl b (by simp [hb'])
        change x.cache.interactions b.p b.g = some ⟨b.ker, compute b.ker (dom b.g)
          ((x.setBody c.p (.deformable r.1)).world.bodies b.p).position⟩
        rw [setBody_ne _ (hbs b hb')]
        exact this) h2
      refine ⟨i1, i2, ?_, ?_, i5, ?_⟩
      · intro b hb' hbs'
        rcases List.mem_cons.mp hb' with rfl | hb'
        · refine ⟨s, hb, ?_⟩
          rw [i4 _ (fun d hd _ => hbs d hd)]
          change (x.setBody b.p (.deformable r.1)).world.bodies b.p = _
          rw [setBody_self, hr']
        · obtain ⟨s', e1, e2⟩ := i3 b hb' hbs'
          have e1 : (x.setBody c.p (.deformable r.1)).world.bodies b.p = .deformable s' := e1
          rw [setBody_ne _ (hbs b hb')] at e1
          exact ⟨s', e1, e2⟩
      · intro p hp
        rw [i4 p (fun d hd => hp d (by simp [hd]))]
        exact setBody_ne _ (fun h => hp c (by simp) hs h.symm) _
      · intro h0 hz
        refine i6 (fun i q => ?_) (fun d hd hsd t ht => ?_)
        · by_cases hi : i = ⟨c.p.val, hS⟩
          · subst hi
            simp only [Function.update_self]
            split_ifs with hq
            · rw [hr']
              exact hz c (by simp) hs s hb ⟨q, hq⟩
            · rfl
          · simp only [Function.update_of_ne hi]
            exact h0 i q
        · have ht : (x.setBody c.p (.deformable r.1)).world.bodies d.p = .deformable t := ht
          rw [setBody_ne _ (hbs d hd)] at ht
          exact hz d (by simp [hd]) hsd t ht

/-- The affine matrices that the gather of an AFLIP step stores. -/
theorem aflip_g2p_stored (pr : AflipParams K) (dt : K) (dom : Fin z.G → GridDomain K dim) (cs : List (Coupling z))
    (hn : (cs.map (·.p)).Nodup) (x x' : Ctx z K dim SS LS (ForceState K dim)) (hl : HasLists dom x cs)
    (h : foldE (aflipG2pCoupling fn pr dom dt) x cs = .ok x') :
    (∀ i : Fin z.S, (∀ c ∈ cs, c.skip = false → c.p.val ≠ i.val) → x'.mech.solvers i = x.mech.solvers i) ∧
    (∀ c ∈ cs, c.skip = false → ∀ s, x.world.bodies c.p = .deformable s → ∀ i : Fin z.S, i.val = c.p.val → ∀ q,
      x'.mech.solvers i q.val =
        (aflipG2pMls fn.sqrt pr (dom c.g).cellSize dt (compute c.ker (dom c.g) s.position) (x.cache.grids c.g) s).2 q) := by
  induction cs generalizing x with
  | nil =>
    have : x = x' := by simpa [foldE] using h
    subst this
    simp
  | cons c cs ih =>
    rw [List.map_cons, List.nodup_cons] at hn
    obtain ⟨x1, h1, h2⟩ := foldE_cons_ok.mp h
    have hbs : ∀ b ∈ cs, b.p ≠ c.p := fun b hb e => hn.1 (List.mem_map.mpr ⟨b, hb, e⟩)
    cases hs : c.skip with
    | true =>
      have := aflipG2pCoupling_skip hs h1
      subst this
      obtain ⟨i1, i2⟩ := ih hn.2 x1 (fun b hb => hl b (by simp [hb])) h2
      refine ⟨fun i hi => i1 i fun d hd => hi d (by simp [hd]), fun b hb hbs' => ?_⟩
      rcases List.mem_cons.mp hb with rfl | hb
      · rw [hs] at hbs'; exact absurd hbs' (by simp)
      · exact i2 b hb hbs'
    | false =>
      obtain ⟨ker, ic, s, r, hS, hic, hb, hr, rfl⟩ := aflipG2pCoupling_ok hs h1
      have hlc := hl c (by simp)
      rw [hic] at hlc
      have hpos : (x.world.bodies c.p).position = s.position := by rw [hb]; rfl
      rw [hpos] at hlc
      have hlc := Option.some.inj hlc
      have hr' : r = aflipG2pMls fn.sqrt pr (dom c.g).cellSize dt (compute c.ker (dom c.g) s.position)
          (x.cache.grids c.g) s := by
        unfold aflipG2pBody at hr
        split_ifs at hr
        cases hlc
        exact (Except.ok.inj hr).symm
      obtain ⟨i1, i2⟩ := ih hn.2 _ (by
        intro b hb'
        have := hl b (by simp [hb'])
        change x.cache.interactions b.p b.g = some ⟨b.ker, compute b.ker (dom b.g)
          ((x.setBody c.p (.deformable r.1)).world.bodies b.p).position⟩
        rw [setBody_ne _ (hbs b hb')]
        exact this) h2
      constructor
      · intro i hi
        rw [i1 i fun d hd => hi d (by simp [hd])]
        have hne : i ≠ ⟨c.p.val, hS⟩ := fun e => hi c (by simp) hs (by rw [e])
        simp only [Function.update_of_ne hne]
      · intro b hb' hbs' t ht i hi q
        rcases List.mem_cons.mp hb' with rfl | hb'
        · rw [hb] at ht
          cases ht
          rw [i1 i fun d hd _ e => hbs d hd (Fin.ext (e.trans hi))]
          obtain rfl : i = ⟨b.p.val, hS⟩ := Fin.ext hi
          simp only [Function.update_self, q.isLt, dif_pos, hr']
        · refine i2 b hb' hbs' t ?_ i hi q
          change (x.setBody c.p (.deformable r.1)).world.bodies b.p = _
          rw [setBody_ne _ (hbs b hb')]
          exact ht

/-- Properties of the contribution of a body in its box. -/
structure GoodContribution {n : ℕ} (N : ℕ) (s : MPState K dim n) (nm : ℕ → K) (k : Contribution K dim) : Prop where
  mass : k.mass = nm
  moment_sum : ∀ a, ∑ j ∈ Finset.range N, k.moment j a = ∑ p, s.mass p * s.velocity p a
  force_sum : ∀ a, ∑ j ∈ Finset.range N, k.force j a = 0
  nonneg : ∀ j, 0 ≤ nm j
  empty : ∀ j, nm j = 0 → ∀ a, k.moment j a = 0 ∧ k.force j a = 0

theorem aflip_goodContribution {n N : ℕ} {ker : Kernel} {dom : GridDomain K dim} {s : MPState K dim n} (B : Fin n → Mat3 K)
    (hc : GoodCache (compute ker dom s.position) N) (hm : ∀ p, 0 < s.mass p) (hf : ∀ p a, s.force p a = 0)
    (hd : ∀ p k, pointSum (compute ker dom s.position) (fun i => (compute ker dom s.position).shapeVal i *
      (compute ker dom s.position).relDist i k) p = 0) :
    GoodContribution N s (nodeMass (compute ker dom s.position) s.mass)
      ⟨(aflipP2gBody dom.cellSize (compute ker dom s.position) B s GridArrays.new).mass,
       (aflipP2gBody dom.cellSize (compute ker dom s.position) B s GridArrays.new).moment,
       (aflipP2gBody dom.cellSize (compute ker dom s.position) B s GridArrays.new).force⟩ where
  mass := by
    funext j
    simp only [aflip_p2g_mass hc]
    simp [GridArrays.new]
  moment_sum a := by
    simp only [aflip_p2g_moment hc]
    simp only [GridArrays.new, zero_add]
    rw [sum_scatterAdd _ hc.hash_lt]
    exact aflip_moment_sum hc hd _ _ s a
  force_sum a := by
    simp only [aflip_p2g_force hc]
    rw [sum_scatterAdd _ hc.hash_lt]
    simp only [hf, mul_zero, add_zero]
    exact sum_internTerm hc _ _ a
  nonneg j := nodeMass_nonneg hc s.mass (fun p => (hm p).le) j
  empty j hj a := by
    have hz := val_zero_of_nodeMass hc s.mass hm j hj
    simp only [aflip_p2g_moment hc, aflip_p2g_force hc]
    constructor
    · rw [scatterAdd_eq_zero _ _ _ fun i hi => by rw [hz i hi]; ring]
      simp [GridArrays.new]
    · refine scatterAdd_eq_zero _ _ _ fun i hi => ?_
      have := hc.grad_zero i (hz i hi)
      rw [hf, mul_zero, add_zero]
      unfold internTerm trunc3
      simp [this]

/-- Stages of an AFLIP call under gravity. -/
structure AflipStages (fn : MathFns K) (pr : AflipParams K) (sv : Solver z K dim SS LS (ForceState K dim))
    (gravs : List (List (Fin z.G) × ℕ)) (st st' : SimState z K dim SS LS (ForceState K dim))
    (grids : Fin z.G → GridArrays K dim) (k : Coupling z → Contribution K dim)
    (f : Fin z.G → ℕ → Fin dim → K) (x3 x4 : Ctx z K dim SS LS (ForceState K dim)) : Prop where
  mass : ∀ g j, (grids g).mass j = gridSum sv.couplings g (fun c => (k c).mass j)
  moment : ∀ g j a, (grids g).moment j a = gridSum sv.couplings g (fun c => (k c).moment j a)
  force : ∀ g j a, (grids g).force j a = f g j a + (grids g).mass j * gridAccel st.mech.forces gravs g a
  force_sum : ∀ g a, ∑ j ∈ Finset.range (sv.domains g).numCells, f g j a = 0
  mass_nonneg : ∀ g j, 0 ≤ (grids g).mass j
  empty : ∀ g j, (grids g).mass j = 0 → ∀ a, (grids g).moment j a = 0 ∧ f g j a = 0
  momentNt : ∀ c ∈ sv.couplings, c.skip = false → (grids c.g).momentNt =
    fun j a => (grids c.g).moment j a + (grids c.g).force j a * st.dt
  body : ∀ c ∈ sv.couplings, c.skip = false → ∃ s, st.world.bodies c.p = .deformable s ∧
    GoodCache (compute c.ker (sv.domains c.g) s.position) (sv.domains c.g).numCells ∧ (∀ q, 0 < s.mass q) ∧
    GoodContribution (sv.domains c.g).numCells s
      ((st.world.bodies c.p).nodeMass c.ker (sv.domains c.g)) (k c) ∧
    x3.world.bodies c.p = .deformable
      (aflipG2pMls fn.sqrt pr (sv.domains c.g).cellSize st.dt (compute c.ker (sv.domains c.g) s.position)
        (grids c.g) (resetBody s)).1
  other : ∀ p, (∀ c ∈ sv.couplings, c.skip = false → c.p ≠ p) →
    x3.world.bodies p = st.world.bodies p ∨
      ∃ s, st.world.bodies p = .deformable s ∧ x3.world.bodies p = .deformable (resetBody s)
  mech : x3.mech.forces = st.mech.forces
  contribution : ∀ c ∈ sv.couplings, c.skip = false → ∀ s, st.world.bodies c.p = .deformable s →
    (k c).moment = (aflipP2gBody (sv.domains c.g).cellSize (compute c.ker (sv.domains c.g) s.position)
      (fun q => st.mech.solvers c.s q.val) (resetBody s) GridArrays.new).moment
  stressfree : (∀ c ∈ sv.couplings, c.skip = false → ∀ s, st.world.bodies c.p = .deformable s → ∀ q, s.stress q = 0) →
    ∀ g j a, f g j a = 0
  laws : x3.mech.laws = st.mech.laws
  solvers : (∀ i q, st.mech.solvers i q = 0) → (∀ c ∈ sv.couplings, c.skip = false → ∀ s, st.world.bodies c.p = .deformable s →
    ∀ q, (aflipG2pMls fn.sqrt pr (sv.domains c.g).cellSize st.dt (compute c.ker (sv.domains c.g) s.position)
      (grids c.g) (resetBody s)).2 q = 0) → ∀ i q, x3.mech.solvers i q = 0
  stored : ∀ c ∈ sv.couplings, c.skip = false → ∀ s, st.world.bodies c.p = .deformable s → ∀ i : Fin z.S, i.val = c.p.val →
    ∀ q, x3.mech.solvers i q.val = (aflipG2pMls fn.sqrt pr (sv.domains c.g).cellSize st.dt
      (compute c.ker (sv.domains c.g) s.position) (grids c.g) (resetBody s)).2 q
  law : foldE (lawCoupling fn sv.laws st.dt) x3 sv.couplings = .ok x4
  world' : st'.world = x4.world
  mech' : st'.mech = x4.mech
  dt' : st'.dt = st.dt

theorem aflip_stages {cut : K} (pr : AflipParams K) (gravs : List (List (Fin z.G) × ℕ)) (hdim : dim = 2 ∨ dim = 3)
    (hforces : sv.forces = gravityList gravs) {st st' : SimState z K dim SS LS (ForceState K dim)}
    (h : aflipCall fn pr sv st = .ok st') (hr : Regular cut sv st.world) :
    ∃ grids k f x3 x4, AflipStages fn pr sv gravs st st' grids k f x3 x4 := by
  have hlib : ∀ f ∈ sv.forces, LibForce f := hforces ▸ gravityList_lib gravs
  obtain ⟨wm, x1, x2, x3, x4, h1, h2, h3, h4, h5, rfl⟩ := callWith_ok h
  have hk := kinematicUpdate_lib hlib _ _ _ _ _ h1
  obtain ⟨x0, h20, h21⟩ := andThen_ok.mp h2
  rw [hforces] at h20
  have hx0 := (gravity_pass gravs _ _ _ _).1 h20
  subst hx0
  obtain ⟨y1, h31, h3⟩ := andThen_ok.mp h3
  obtain ⟨y2, h32, h33⟩ := andThen_ok.mp h3
  rw [hforces] at h31 h33
  have hy2 := (gravity_pass gravs _ _ _ _).2 h33
  obtain rfl : x2 = y2 := hy2
  rename' x2 => y2
  set w0 := resetMaterialPoints sv wm.1 with hw0
  have hbod : wm.1.bodies = st.world.bodies := hk.1
  have hact : ∀ c ∈ sv.couplings, ∀ t, w0.bodies c.p = .deformable t →
      ∃ s, st.world.bodies c.p = .deformable s ∧ t = resetBody s := by
    intro c hc t ht
    have := reset_active sv wm.1 c hc t ht
    rwa [hbod] at this
  have hgood : ∀ c ∈ sv.couplings, c.skip = false → ∀ s, st.world.bodies c.p = .deformable s →
      GoodCache (compute c.ker (sv.domains c.g) s.position) (sv.domains c.g).numCells ∧
      ∀ p k, pointSum (compute c.ker (sv.domains c.g) s.position)
        (fun i => (compute c.ker (sv.domains c.g) s.position).shapeVal i *
          (compute c.ker (sv.domains c.g) s.position).relDist i k) p = 0 := by
    intro c hc hs s hb
    obtain ⟨o, e, hh, pad, hpos, hpad, hd, hx⟩ := hr.box c hc hs
    rw [hb] at hx
    rw [hd]
    exact ⟨goodCache_of_inBox hdim c.ker o e hh hpos pad hpad s.position hx,
      sum_val_relDist c.ker o e hh hpos pad hpad s.position hx⟩
  have hl0 : HasLists sv.domains (⟨w0, wm.2, buildCache fn sv w0 st.dt⟩ : Ctx z K dim SS LS (ForceState K dim))
      sv.couplings := by
    intro c hc
    change (buildCache fn sv w0 st.dt).interactions c.p c.g = _
    rw [buildCache_interactions]
    exact computeConnectivity_self sv w0 hr.single c hc
  set k := aflipContribution sv.domains w0 wm.2.solvers with hkdef
  have hdep := deposits_order (List.Perm.refl sv.couplings)
    (fun c hc => aflip_deposits sv.domains _ c (hl0 c hc)) h21
  have w1 := same_of_fold sv.couplings _ x1 (fun c _ x x' hx => aflipP2gCoupling_world sv.domains x x' c hx) h21
  have g1 := gravity_fold gravs x1 y1 _ _ h31
  have wy1 : y1.world = x1.world ∧ y1.mech = x1.mech ∧ y1.cache.interactions = x1.cache.interactions ∧
      y1.cache.mpGeoms = x1.cache.mpGeoms := same_of_fold (gravityList gravs) x1 y1
    (fun f hfm x x' hx => libForce_gridForces (gravityList_lib gravs f hfm) x x' _ _ hx) h31
  have hmech1 : x1.mech = st.mech := w1.2.1.trans hk.2.1
  have i1 := integrate_fold st.dt sv.couplings y1 y2 h32
  have wy2 := same_of_fold sv.couplings y1 y2
    (fun c _ x x' hx => integrateCoupling_world st.dt x x' c hx) h32
  have hwy : y2.world = w0 := by rw [wy2.1, wy1.1, w1.1]
  have hl2 : HasLists sv.domains y2 sv.couplings := by
    intro c hc
    rw [wy2.2.2.1, wy1.2.2.1, w1.2.2.1, hwy]
    exact hl0 c hc
  obtain ⟨-, gm, gb, go, gl, gs⟩ := aflip_g2p_fold pr st.dt sv.domains sv.couplings hr.single y2 x3 hl2 h4
  have hbody : ∀ c ∈ sv.couplings, c.skip = false → ∃ s, st.world.bodies c.p = .deformable s ∧
      w0.bodies c.p = .deformable (resetBody s) ∧ x3.world.bodies c.p = .deformable
      (aflipG2pMls fn.sqrt pr (sv.domains c.g).cellSize st.dt (compute c.ker (sv.domains c.g) s.position)
        (y2.cache.grids c.g) (resetBody s)).1 := by
    intro c hc hs
    obtain ⟨t, e1, e2⟩ := gb c hc hs
    rw [hwy] at e1
    obtain ⟨s, e3, rfl⟩ := hact c hc t e1
    exact ⟨s, e3, e1, e2⟩
  have hcon : ∀ c ∈ sv.couplings, c.skip = false → ∀ s, st.world.bodies c.p = .deformable s →
      w0.bodies c.p = .deformable (resetBody s) →
      GoodContribution (sv.domains c.g).numCells s ((st.world.bodies c.p).nodeMass c.ker (sv.domains c.g)) (k c) := by
    intro c hc hs s e1 e2
    obtain ⟨c1, c2⟩ := hgood c hc hs s e1
    have := aflip_goodContribution (s := resetBody s) (fun q => wm.2.solvers c.s q.val) c1
      (hr.mass_pos c hc hs s e1) (fun _ _ => rfl) c2
    have hkc : k c = ⟨(aflipP2gBody (sv.domains c.g).cellSize (compute c.ker (sv.domains c.g) (resetBody s).position)
          (fun q => wm.2.solvers c.s q.val) (resetBody s) GridArrays.new).mass,
        (aflipP2gBody (sv.domains c.g).cellSize (compute c.ker (sv.domains c.g) (resetBody s).position)
          (fun q => wm.2.solvers c.s q.val) (resetBody s) GridArrays.new).moment,
        (aflipP2gBody (sv.domains c.g).cellSize (compute c.ker (sv.domains c.g) (resetBody s).position)
          (fun q => wm.2.solvers c.s q.val) (resetBody s) GridArrays.new).force⟩ := by
      rw [hkdef]
      unfold aflipContribution
      rw [e2]
    rw [hkc, e1]
    exact ⟨this.mass, this.moment_sum, this.force_sum, this.nonneg, this.empty⟩
  have hmass1 : ∀ g j, (x1.cache.grids g).mass j = gridSum sv.couplings g (fun c => (k c).mass j) := by
    intro g j
    rw [(hdep.1 g).mass j, gridSum_filter]
    exact zero_add _
  have hmom1 : ∀ g j a, (x1.cache.grids g).moment j a = gridSum sv.couplings g (fun c => (k c).moment j a) := by
    intro g j a
    rw [(hdep.1 g).moment j a, gridSum_filter]
    exact zero_add _
  have hmass : ∀ g j, (y2.cache.grids g).mass j = (x1.cache.grids g).mass j := by
    intro g j; rw [(i1 g).1, g1 g]
  have hmom : ∀ g j a, (y2.cache.grids g).moment j a = (x1.cache.grids g).moment j a := by
    intro g j a; rw [(i1 g).2.1, g1 g]
  have hforce1 : ∀ g, (∀ j a, (x1.cache.grids g).force j a = 0) ∨ ∃ c ∈ sv.couplings, c.skip = false ∧ c.g = g ∧
      (x1.cache.grids g).force = (k c).force := by
    intro g
    have hf := hdep.2.1 g
    cases hlast : (sv.couplings.filter fun c => !c.skip && decide (c.g = g)).getLast? with
    | none => left; intro j a; rw [hf, hlast]; rfl
    | some c =>
      right
      have hm := List.mem_of_getLast? hlast
      rw [List.mem_filter] at hm
      simp only [Bool.and_eq_true, Bool.not_eq_true', decide_eq_true_eq] at hm
      exact ⟨c, hm.1, hm.2.1, hm.2.2, by rw [hf, hlast]; rfl⟩
  have hnn : ∀ j, ∀ c ∈ sv.couplings, c.skip = false → 0 ≤ (k c).mass j := by
    intro j c hc hs
    obtain ⟨s, e1, e2, -⟩ := hbody c hc hs
    have := hcon c hc hs s e1 e2
    rw [this.mass]
    exact this.nonneg j
  have hmech2 : y2.mech = st.mech := by rw [wy2.2.1, wy1.2.1, hmech1]
  have hkc : ∀ c ∈ sv.couplings, c.skip = false → ∀ s, st.world.bodies c.p = .deformable s →
      k c = ⟨(aflipP2gBody (sv.domains c.g).cellSize (compute c.ker (sv.domains c.g) s.position)
          (fun q => st.mech.solvers c.s q.val) (resetBody s) GridArrays.new).mass,
        (aflipP2gBody (sv.domains c.g).cellSize (compute c.ker (sv.domains c.g) s.position)
          (fun q => st.mech.solvers c.s q.val) (resetBody s) GridArrays.new).moment,
        (aflipP2gBody (sv.domains c.g).cellSize (compute c.ker (sv.domains c.g) s.position)
          (fun q => st.mech.solvers c.s q.val) (resetBody s) GridArrays.new).force⟩ := by
    intro c hc hs s hb
    obtain ⟨t, e1, e2, -⟩ := hbody c hc hs
    rw [hb] at e1
    cases e1
    rw [hkdef]
    unfold aflipContribution
    rw [e2, show wm.2 = st.mech from hk.2.1]
    rfl
  refine ⟨y2.cache.grids, k, fun g => (x1.cache.grids g).force, x3, x4, ?_, ?_, ?_, ?_, ?_, ?_, ?_, ?_, ?_, ?_,
    fun c hc hs s hb => by rw [hkc c hc hs s hb], ?_, gl.trans (by rw [hmech2]), ?_, ?_, h5, rfl, rfl, rfl⟩
  · intro g j; rw [hmass, hmass1]
  · intro g j a; rw [hmom, hmom1]
  · intro g j a
    rw [(i1 g).2.2.1, hmass, g1 g, hmech1]
  · intro g a
    rcases hforce1 g with h0 | ⟨c, hc, hs, rfl, hcf⟩
    · exact Finset.sum_eq_zero fun j _ => h0 j a
    · obtain ⟨s, e1, e2, -⟩ := hbody c hc hs
      simp only [hcf]
      exact (hcon c hc hs s e1 e2).force_sum a
  · intro g j; rw [hmass, hmass1]; exact gridSum_nonneg _ _ _ (hnn j)
  · intro g j hm a
    rw [hmass, hmass1] at hm
    have hz := gridSum_term_zero sv.couplings g _ (hnn j) hm
    have hze : ∀ c ∈ sv.couplings, c.skip = false → c.g = g → (k c).moment j a = 0 ∧ (k c).force j a = 0 := by
      intro c hc hs hg
      obtain ⟨s, e1, e2, -⟩ := hbody c hc hs
      have hh := hcon c hc hs s e1 e2
      exact hh.empty j (by rw [← hh.mass]; exact hz c hc hs hg) a
    constructor
    · rw [hmom, hmom1]
      exact gridSum_zero _ _ _ fun c hc hs hg => (hze c hc hs hg).1
    · rcases hforce1 g with h0 | ⟨c, hc, hs, hg, hcf⟩
      · exact h0 j a
      · simp only [hcf]
        exact (hze c hc hs hg).2
  · intro c hc hs
    rw [(i1 c.g).2.2.2 ⟨c, hc, hs, rfl⟩, (i1 c.g).2.1, (i1 c.g).2.2.1]
  · intro c hc hs
    obtain ⟨s, e1, e2, e3⟩ := hbody c hc hs
    exact ⟨s, e1, (hgood c hc hs s e1).1, hr.mass_pos c hc hs s e1, hcon c hc hs s e1 e2, e3⟩
  · intro p hp
    rw [go p hp, hwy]
    have := reset_body sv wm.1 p
    rwa [hbod] at this
  · rw [gm, wy2.2.1, wy1.2.1, hmech1]
  · intro hz g j a
    rcases hforce1 g with h0 | ⟨c, hc, hs, -, hcf⟩
    · exact h0 j a
    · obtain ⟨s, e1, -⟩ := hbody c hc hs
      simp only [hcf, hkc c hc hs s e1]
      rw [aflip_p2g_force (hgood c hc hs s e1).1]
      refine scatterAdd_eq_zero _ _ _ fun i _ => ?_
      have h1 : (resetBody s).stress = s.stress := rfl
      have h2 : (resetBody s).force = fun _ _ => 0 := rfl
      rw [h1, h2, hz c hc hs s e1]
      simp [internTerm, trunc3]
  · intro h0 hz
    refine gs (by rw [hmech2]; exact h0) fun c hc hs t ht => ?_
    rw [hwy] at ht
    obtain ⟨s, e1, rfl⟩ := hact c hc t ht
    exact hz c hc hs s e1
  · intro c hc hs s hb i hi q
    obtain ⟨t, e1, e2, -⟩ := hbody c hc hs
    rw [hb] at e1
    cases e1
    exact (aflip_g2p_stored pr st.dt sv.domains sv.couplings hr.single y2 x3 hl2 h4).2 c hc hs _ (by rw [hwy]; exact e2) i hi q

/-- The velocity an AFLIP step would give without the speed limit. -/
def aflipFree (pr : AflipParams K) {n w : ℕ} (c : InteractionCache K n w) (g : GridArrays K dim) (s : MPState K dim n) :
    Fin n → Fin dim → K :=
  let gt := aflipGather pr.cutoff c g
  fun p a => gt.pVelNt p a + dynAlpha pr c g s p * (s.velocity p a - gt.pVel p a)

theorem aflip_velocity (sqrt : K → K) (pr : AflipParams K) (cell dt : K) {n w : ℕ} (c : InteractionCache K n w)
    (g : GridArrays K dim) (s : MPState K dim n) (p : Fin n) (a : Fin dim) :
    (aflipG2pMls sqrt pr cell dt c g s).1.velocity p a =
      aflipFree pr c g s p a * clampFactor sqrt pr.cfl cell dt (aflipFree pr c g s p) := rfl

/-- Momentum of the unlimited velocities of a body, in terms of nodal quantities. -/
theorem aflip_free_momentum (pr : AflipParams K) (hdyn : pr.useDynamicAlpha = false) {n w N : ℕ}
    {c : InteractionCache K n w} (hc : GoodCache c N) (gr : GridArrays K dim) (s : MPState K dim n) (a : Fin dim) :
    ∑ p, s.mass p * aflipFree pr c gr s p a =
      ∑ j ∈ Finset.range N, nodeMass c s.mass j * (nodeVel pr.cutoff (gr.mass j) (gr.momentNt j a) -
        pr.alpha * nodeVel pr.cutoff (gr.mass j) (gr.moment j a)) + pr.alpha * ∑ p, s.mass p * s.velocity p a := by
  have h1 := sum_mass_interp hc s.mass (fun j => nodeVel pr.cutoff (gr.mass j) (gr.momentNt j a))
  have h2 := sum_mass_interp hc s.mass (fun j => nodeVel pr.cutoff (gr.mass j) (gr.moment j a))
  have e : ∑ j ∈ Finset.range N, nodeMass c s.mass j * (nodeVel pr.cutoff (gr.mass j) (gr.momentNt j a) -
        pr.alpha * nodeVel pr.cutoff (gr.mass j) (gr.moment j a)) =
      ∑ j ∈ Finset.range N, nodeMass c s.mass j * nodeVel pr.cutoff (gr.mass j) (gr.momentNt j a) -
        pr.alpha * ∑ j ∈ Finset.range N, nodeMass c s.mass j * nodeVel pr.cutoff (gr.mass j) (gr.moment j a) := by
    rw [Finset.mul_sum, ← Finset.sum_sub_distrib]
    exact Finset.sum_congr rfl fun j _ => by ring
  rw [e, ← h1, ← h2, Finset.mul_sum, Finset.mul_sum, ← Finset.sum_sub_distrib, ← Finset.sum_add_distrib]
  refine Finset.sum_congr rfl fun p _ => ?_
  simp only [aflipFree, aflipGather, dynAlpha, hdyn, Bool.false_eq_true, if_false]
  ring

/-- Nodal bookkeeping shared by both transfers. -/
theorem node_balance {cs : List (Coupling z)} {N : Fin z.G → ℕ} {grids : Fin z.G → GridArrays K dim}
    {nm nv : Coupling z → ℕ → K} {f : Fin z.G → ℕ → K} {acc : Fin z.G → K} {cut alpha dt : K} {a : Fin dim}
    (mass : ∀ g j, (grids g).mass j = gridSum cs g (fun c => nm c j))
    (moment : ∀ g j, (grids g).moment j a = gridSum cs g (fun c => nv c j))
    (force : ∀ g j, (grids g).force j a = f g j + (grids g).mass j * acc g)
    (force_sum : ∀ g, ∑ j ∈ Finset.range (N g), f g j = 0)
    (mass_nonneg : ∀ g j, 0 ≤ (grids g).mass j)
    (empty : ∀ g j, (grids g).mass j = 0 → (grids g).moment j a = 0 ∧ f g j = 0)
    (momentNt : ∀ c ∈ cs, c.skip = false → ∀ j, (grids c.g).momentNt j a =
      (grids c.g).moment j a + (grids c.g).force j a * dt)
    (hcut : ∀ g j, 0 < (grids g).mass j → cut < (grids g).mass j) :
    activeSum cs (fun c => ∑ j ∈ Finset.range (N c.g),
      (nm c j * (nodeVel cut ((grids c.g).mass j) ((grids c.g).momentNt j a) -
          alpha * nodeVel cut ((grids c.g).mass j) ((grids c.g).moment j a)) + (alpha - 1) * nv c j)) =
      dt * activeSum cs (fun c => ∑ j ∈ Finset.range (N c.g), nm c j * acc c.g) := by
  rw [← sum_gridSum cs (fun g c => ∑ j ∈ Finset.range (N g),
      (nm c j * (nodeVel cut ((grids g).mass j) ((grids g).momentNt j a) -
          alpha * nodeVel cut ((grids g).mass j) ((grids g).moment j a)) + (alpha - 1) * nv c j)),
    ← sum_gridSum cs (fun g c => ∑ j ∈ Finset.range (N g), nm c j * acc g), Finset.mul_sum]
  refine Finset.sum_congr rfl fun g _ => ?_
  rw [← gridSum_sum, ← gridSum_sum]
  simp only [gridSum_add, mul_comm (alpha - 1), ← gridSum_mul, ← mass, ← moment]
  have key : ∀ j, (grids g).mass j * (nodeVel cut ((grids g).mass j) ((grids g).momentNt j a) -
        alpha * nodeVel cut ((grids g).mass j) ((grids g).moment j a)) +
      (grids g).moment j a * (alpha - 1) =
      dt * f g j + dt * ((grids g).mass j * acc g) := by
    intro j
    rcases (mass_nonneg g j).eq_or_lt with h0 | h0
    · obtain ⟨e1, e2⟩ := empty g j h0.symm
      rw [← h0, e1, e2]; ring
    · have hcut := hcut g j h0
      obtain ⟨c, hc, hs, rfl⟩ := gridSum_ne_zero cs g _ (by rw [← mass g j]; exact h0.ne')
      have e1 := mul_nodeVel (m := (grids c.g).mass j) (mom := (grids c.g).momentNt j a) hcut h0
      have e2 := mul_nodeVel (m := (grids c.g).mass j) (mom := (grids c.g).moment j a) hcut h0
      have e3 := momentNt c hc hs j
      rw [force] at e3
      linear_combination e1 - alpha * e2 + e3
  simp only [key]
  rw [Finset.sum_add_distrib, ← Finset.mul_sum, force_sum, mul_zero, zero_add, Finset.mul_sum]

/-- Mass of a point of a body. -/
def Spec.pointMass {n : ℕ} : Body K dim n → Fin n → K
  | .deformable s, q => s.mass q
  | .rigid _, _ => 0

/-- Momentum balance of an AFLIP step with a constant blend: the unlimited velocities `v0` carry exactly the old momentum
plus the impulse; what the speed limit removes is lost. -/
theorem aflip_step_balance (pr : AflipParams K) (hdyn : pr.useDynamicAlpha = false)
    (gravs : List (List (Fin z.G) × ℕ)) (hdim : dim = 2 ∨ dim = 3)
    (hforces : sv.forces = gravityList gravs) (hL : ∀ c, (sv.laws c).OnlyStress)
    {st st' : SimState z K dim SS LS (ForceState K dim)}
    (h : aflipCall fn pr sv st = .ok st') (hr : Regular pr.cutoff sv st.world) :
    ∃ v0 : ∀ p, Fin (z.np p) → Fin dim → K,
      (∀ c ∈ sv.couplings, c.skip = false → ∃ s', st'.world.bodies c.p = .deformable s' ∧
        (∀ q, s'.mass q = pointMass (st.world.bodies c.p) q) ∧ ∀ q a,
        s'.velocity q a = v0 c.p q a * clampFactor fn.sqrt pr.cfl (sv.domains c.g).cellSize st.dt (v0 c.p q)) ∧
      ∀ a, totalMomentum st'.world a = totalMomentum st.world a +
        st.dt * activeSum sv.couplings
          (fun c => bodyMass (st.world.bodies c.p) * gridAccel st.mech.forces gravs c.g a) -
        activeSum sv.couplings (fun c => ∑ q, pointMass (st.world.bodies c.p) q * (v0 c.p q a *
          (1 - clampFactor fn.sqrt pr.cfl (sv.domains c.g).cellSize st.dt (v0 c.p q)))) := by
  obtain ⟨grids, k, f, x3, x4, S⟩ := aflip_stages pr gravs hdim hforces h hr
  have hlaw := (law_fold hL st.dt sv.couplings x3 x4 S.law).2
  -- unlimited velocities
  let v0 : ∀ p, Fin (z.np p) → Fin dim → K := fun p q a =>
    match st.world.bodies p with
    | .rigid _ => 0
    | .deformable s =>
      match sv.couplings.find? (fun c => !c.skip && decide (c.p = p)) with
      | none => 0
      | some c => aflipFree pr (compute c.ker (sv.domains c.g) s.position) (grids c.g) (resetBody s) q a
  have hv0 : ∀ c ∈ sv.couplings, c.skip = false → ∀ s, st.world.bodies c.p = .deformable s →
      v0 c.p = aflipFree pr (compute c.ker (sv.domains c.g) s.position) (grids c.g) (resetBody s) := by
    intro c hc hs s hb
    have hfind : sv.couplings.find? (fun d => !d.skip && decide (d.p = c.p)) = some c := by
      cases hf : sv.couplings.find? (fun d => !d.skip && decide (d.p = c.p)) with
      | none =>
        have := List.find?_eq_none.mp hf c hc
        simp [hs] at this
      | some d =>
        have h1 := List.mem_of_find?_eq_some hf
        have h2 := List.find?_some hf
        simp only [Bool.and_eq_true, Bool.not_eq_true', decide_eq_true_eq] at h2
        exact congrArg some (List.inj_on_of_nodup_map hr.single h1 hc h2.2)
    funext q a
    simp only [v0]
    rw [hb, hfind]
  refine ⟨v0, ?_, ?_⟩
  · intro c hc hs
    obtain ⟨s, e1, -, -, -, e2⟩ := S.body c hc hs
    have hrel := hlaw c.p
    rw [e2] at hrel
    rw [S.world']
    cases hb : x4.world.bodies c.p with
    | rigid r => rw [hb] at hrel; exact absurd hrel id
    | deformable s' =>
      rw [hb] at hrel
      obtain ⟨r1, r2, -, -⟩ := hrel
      refine ⟨s', rfl, ?_, ?_⟩
      · intro q; rw [r1, e1]; rfl
      · intro q a
        rw [r2, hv0 c hc hs s e1]
        rfl
  intro a
  have hA := node_balance (cs := sv.couplings) (N := fun g => (sv.domains g).numCells) (grids := grids)
    (nm := fun c => (k c).mass) (nv := fun c j => (k c).moment j a) (f := fun g j => f g j a)
    (acc := fun g => gridAccel st.mech.forces gravs g a) (cut := pr.cutoff) (alpha := pr.alpha) (dt := st.dt) (a := a)
    S.mass (fun g j => S.moment g j a) (fun g j => S.force g j a) (fun g => S.force_sum g a) S.mass_nonneg
    (fun g j h => S.empty g j h a) (fun c hc hs j => by rw [S.momentNt c hc hs]) (by
      intro g j h0
      have := hr.cutoff g j
      rw [show gridSum sv.couplings g (fun c => (st.world.bodies c.p).nodeMass c.ker (sv.domains c.g) j) =
        (grids g).mass j from ?_] at this
      · exact this h0
      · rw [S.mass]
        refine gridSum_congr _ _ _ _ fun c hc hs _ => ?_
        obtain ⟨s, -, -, -, e3, -⟩ := S.body c hc hs
        rw [e3.mass])
  have hB : totalMomentum st'.world a - totalMomentum st.world a = activeSum sv.couplings
      (fun c => bodyMomentum (st'.world.bodies c.p) a - bodyMomentum (st.world.bodies c.p) a) := by
    unfold totalMomentum
    rw [← Finset.sum_sub_distrib]
    refine sum_bodies sv.couplings hr.single
      (fun p => bodyMomentum (st'.world.bodies p) a - bodyMomentum (st.world.bodies p) a) ?_
    intro p hp
    rw [S.world', (bodyMomentum_rel (hlaw p)).1]
    rcases S.other p hp with e | ⟨s, e1, e2⟩
    · rw [e, sub_self]
    · rw [e1, e2]
      exact sub_self _
  have hC : activeSum sv.couplings
      (fun c => bodyMomentum (st'.world.bodies c.p) a - bodyMomentum (st.world.bodies c.p) a) =
      activeSum sv.couplings (fun c => ∑ j ∈ Finset.range (sv.domains c.g).numCells,
        ((k c).mass j * (nodeVel pr.cutoff ((grids c.g).mass j) ((grids c.g).momentNt j a) -
            pr.alpha * nodeVel pr.cutoff ((grids c.g).mass j) ((grids c.g).moment j a)) +
          (pr.alpha - 1) * (k c).moment j a)) +
      activeSum sv.couplings (fun c => -1 * ∑ q, pointMass (st.world.bodies c.p) q * (v0 c.p q a *
          (1 - clampFactor fn.sqrt pr.cfl (sv.domains c.g).cellSize st.dt (v0 c.p q)))) := by
    rw [← activeSum_add]
    refine activeSum_congr _ _ _ fun c hc hs => ?_
    obtain ⟨s, e1, hgc, -, hk, e2⟩ := S.body c hc hs
    rw [S.world', (bodyMomentum_rel (hlaw c.p)).1, e2, hv0 c hc hs s e1]
    have hm := aflip_free_momentum pr hdyn hgc (grids c.g) (resetBody s) a
    have hP := hk.moment_sum a
    rw [Finset.sum_add_distrib, ← Finset.mul_sum, hP, hk.mass, e1]
    have hkm : ∀ j, (Body.deformable s).nodeMass c.ker (sv.domains c.g) j =
      nodeMass (compute c.ker (sv.domains c.g) s.position) (resetBody s).mass j := fun _ => rfl
    simp only [hkm]
    have hres : ∑ p, (resetBody s).mass p * (resetBody s).velocity p a = ∑ p, s.mass p * s.velocity p a := rfl
    rw [hres] at hm
    rw [eq_sub_of_add_eq hm.symm]
    simp only [bodyMomentum, pointMass, aflip_velocity]
    rw [Finset.mul_sum (a := (-1 : K))]
    have hsplit : ∀ q, -1 * (s.mass q * (aflipFree pr (compute c.ker (sv.domains c.g) s.position) (grids c.g) (resetBody s) q a *
        (1 - clampFactor fn.sqrt pr.cfl (sv.domains c.g).cellSize st.dt
          (aflipFree pr (compute c.ker (sv.domains c.g) s.position) (grids c.g) (resetBody s) q)))) =
        s.mass q * (aflipFree pr (compute c.ker (sv.domains c.g) s.position) (grids c.g) (resetBody s) q a *
          clampFactor fn.sqrt pr.cfl (sv.domains c.g).cellSize st.dt
          (aflipFree pr (compute c.ker (sv.domains c.g) s.position) (grids c.g) (resetBody s) q)) -
        (resetBody s).mass q * aflipFree pr (compute c.ker (sv.domains c.g) s.position) (grids c.g) (resetBody s) q a := by
      intro q
      have : (resetBody s).mass q = s.mass q := rfl
      rw [this]; ring
    simp only [hsplit]
    rw [Finset.sum_sub_distrib]
    have : ∀ q, (aflipG2pMls fn.sqrt pr (sv.domains c.g).cellSize st.dt (compute c.ker (sv.domains c.g) s.position)
        (grids c.g) (resetBody s)).1.mass q = s.mass q := fun _ => rfl
    rw [Finset.sum_congr rfl fun q _ => congrArg (· * _) (this q)]
    ring
  have hM : activeSum sv.couplings (fun c => ∑ j ∈ Finset.range (sv.domains c.g).numCells,
      (k c).mass j * gridAccel st.mech.forces gravs c.g a) =
      activeSum sv.couplings (fun c => bodyMass (st.world.bodies c.p) * gridAccel st.mech.forces gravs c.g a) := by
    refine activeSum_congr _ _ _ fun c hc hs => ?_
    obtain ⟨s, e1, hgc, -, hk, -⟩ := S.body c hc hs
    rw [hk.mass, e1, ← Finset.sum_mul]
    congr 1
    exact sum_nodeMass hgc s.mass
  rw [hM] at hA
  rw [hA, ← activeSum_mul] at hC
  rw [hC] at hB
  linear_combination hB

end

/-! ### The speed limit -/

section
variable {K : Type*} [Field K] [LinearOrder K] [IsStrictOrderedRing K] [FloorRing K]
variable {z : Sz} {dim : ℕ} {SS LS : Type*} {fn : MathFns K} {sv : Solver z K dim SS LS (ForceState K dim)}

/-- Square of the Euclidean length. -/
def Spec.speedSq (v : Fin dim → K) : K := ∑ a, v a ^ 2

/-- A square root that never overestimates. -/
def Spec.LowerRoot (f : K → K) : Prop := ∀ x, 0 ≤ x → 0 ≤ f x ∧ f x ^ 2 ≤ x

/-- A square root that never underestimates. -/
def Spec.UpperRoot (f : K → K) : Prop := ∀ x, 0 ≤ x → 0 ≤ f x ∧ x ≤ f x ^ 2

/-- The real square root is both. -/
theorem sqrt_lowerRoot : LowerRoot Real.sqrt := fun _ hx => ⟨Real.sqrt_nonneg _, (Real.sq_sqrt hx).le⟩

theorem sqrt_upperRoot : UpperRoot Real.sqrt := fun _ hx => ⟨Real.sqrt_nonneg _, (Real.sq_sqrt hx).ge⟩

theorem speedSq_nonneg (v : Fin dim → K) : 0 ≤ speedSq v := Finset.sum_nonneg fun _ _ => sq_nonneg _

theorem speedSq_mul (v : Fin dim → K) (q : K) : speedSq (fun a => v a * q) = speedSq v * q ^ 2 := by
  unfold speedSq
  rw [Finset.sum_mul]
  exact Finset.sum_congr rfl fun a _ => by ring

theorem clamp_speed {sqrt : K → K} (hsqrt : UpperRoot sqrt) {cfl cell dt : K} (h : 0 ≤ cfl * cell / dt) (v : Fin dim → K) :
    speedSq (fun a => v a * clampFactor sqrt cfl cell dt v) ≤ (cfl * cell / dt) ^ 2 := by
  rw [speedSq_mul]
  obtain ⟨h0, h1⟩ := hsqrt (∑ a, v a ^ 2) (speedSq_nonneg v)
  have hc : clampFactor sqrt cfl cell dt v = min 1 ((cfl * cell / dt) / (sqrt (∑ a, v a ^ 2) + 1 / 10 ^ 12)) := rfl
  set S := sqrt (∑ a, v a ^ 2) with hS
  have heps : (0 : K) < 1 / 10 ^ 12 := by positivity
  have hpos : 0 < S + 1 / 10 ^ 12 := by linarith
  set f := clampFactor sqrt cfl cell dt v with hf
  have hf0 : 0 ≤ f := by rw [hc]; exact le_min zero_le_one (div_nonneg h hpos.le)
  have hfl : f * (S + 1 / 10 ^ 12) ≤ cfl * cell / dt := by
    rw [hc, ← le_div_iff₀ hpos]; exact min_le_right _ _
  have hSf : S * f ≤ cfl * cell / dt := by nlinarith [mul_nonneg hf0 heps.le]
  calc speedSq v * f ^ 2 ≤ S ^ 2 * f ^ 2 := mul_le_mul_of_nonneg_right h1 (sq_nonneg _)
    _ = (S * f) ^ 2 := by ring
    _ ≤ _ := pow_le_pow_left₀ (mul_nonneg h0 hf0) hSf 2

/-- A point that ends a step a little below the limit was not slowed down. -/
theorem clamp_one_of_speed {sqrt : K → K} (hsqrt : LowerRoot sqrt) {cfl cell dt : K} (v : Fin dim → K)
    (hmax : 1 / 10 ^ 12 ≤ cfl * cell / dt)
    (hv : speedSq (fun a => v a * clampFactor sqrt cfl cell dt v) ≤ (cfl * cell / dt - 1 / 10 ^ 12) ^ 2) :
    clampFactor sqrt cfl cell dt v = 1 := by
  rw [speedSq_mul] at hv
  obtain ⟨h0, h1⟩ := hsqrt (∑ a, v a ^ 2) (speedSq_nonneg v)
  have hc : clampFactor sqrt cfl cell dt v = min 1 ((cfl * cell / dt) / (sqrt (∑ a, v a ^ 2) + 1 / 10 ^ 12)) := rfl
  have heps : (0 : K) < 1 / 10 ^ 12 := by positivity
  set S := sqrt (∑ a, v a ^ 2) with hS
  have hpos : 0 < S + 1 / 10 ^ 12 := by linarith
  by_contra hne
  have hlt : (cfl * cell / dt) / (S + 1 / 10 ^ 12) < 1 := by
    by_contra hge
    exact hne (hc.trans (min_eq_left (not_lt.mp hge)))
  rw [min_eq_right hlt.le] at hc
  set f := clampFactor sqrt cfl cell dt v with hf
  have hf1 : f < 1 := hc ▸ hlt
  have hf0 : 0 ≤ f := by rw [hc]; exact div_nonneg (heps.le.trans hmax) hpos.le
  have hfl : f * (S + 1 / 10 ^ 12) = cfl * cell / dt := by rw [hc]; exact div_mul_cancel₀ _ hpos.ne'
  have h2 : (S * f) ^ 2 ≤ (cfl * cell / dt - 1 / 10 ^ 12) ^ 2 := by
    refine le_trans ?_ hv
    rw [mul_pow]
    exact mul_le_mul_of_nonneg_right h1 (sq_nonneg _)
  have h3 : S * f ≤ cfl * cell / dt - 1 / 10 ^ 12 := (pow_le_pow_iff_left₀ (mul_nonneg h0 hf0) (by linarith) (by norm_num)).mp h2
  nlinarith

/-- AFLIP conserves momentum when the blend is constant (`use_dynamic_alpha=False`) and every point ends the step below the
speed limit. Without these conditions it does not: `aflip_momentum_fails_dynamic`, `aflip_momentum_fails_limit`. -/
theorem aflip_step_momentum_partial (hsqrt : LowerRoot fn.sqrt) (pr : AflipParams K) (hdyn : pr.useDynamicAlpha = false)
    (gravs : List (List (Fin z.G) × ℕ)) (hdim : dim = 2 ∨ dim = 3)
    (hforces : sv.forces = gravityList gravs) (hL : ∀ c, (sv.laws c).OnlyStress)
    {st st' : SimState z K dim SS LS (ForceState K dim)}
    (h : aflipCall fn pr sv st = .ok st') (hr : Regular pr.cutoff sv st.world)
    (hslow : ∀ c ∈ sv.couplings, c.skip = false → 1 / 10 ^ 12 ≤ pr.cfl * (sv.domains c.g).cellSize / st.dt ∧
      ∀ s', st'.world.bodies c.p = .deformable s' → ∀ q,
        speedSq (s'.velocity q) ≤ (pr.cfl * (sv.domains c.g).cellSize / st.dt - 1 / 10 ^ 12) ^ 2) (a : Fin dim) :
    totalMomentum st'.world a = totalMomentum st.world a +
      st.dt * activeSum sv.couplings
        (fun c => bodyMass (st.world.bodies c.p) * gridAccel st.mech.forces gravs c.g a) := by
  obtain ⟨v0, h1, h2⟩ := aflip_step_balance pr hdyn gravs hdim hforces hL h hr
  have hloss : activeSum sv.couplings (fun c => ∑ q, pointMass (st.world.bodies c.p) q * (v0 c.p q a *
          (1 - clampFactor fn.sqrt pr.cfl (sv.domains c.g).cellSize st.dt (v0 c.p q)))) = 0 := by
    rw [activeSum_congr sv.couplings _ (fun _ => 0) ?_]
    · simp [activeSum]
    · intro c hc hs
      obtain ⟨s', e1, -, e2⟩ := h1 c hc hs
      refine Finset.sum_eq_zero fun q _ => ?_
      have hq := (hslow c hc hs).2 s' e1 q
      rw [show s'.velocity q = fun a => v0 c.p q a * clampFactor fn.sqrt pr.cfl (sv.domains c.g).cellSize st.dt
        (v0 c.p q) from funext fun a => by rw [e2]] at hq
      rw [clamp_one_of_speed hsqrt _ (hslow c hc hs).1 hq]
      ring
  rw [h2 a, hloss, sub_zero]

/-- After any AFLIP step every point of an active body is at most as fast as the limit of its grids. -/
theorem aflip_speed_limit_partial (hsqrt : UpperRoot fn.sqrt) (pr : AflipParams K) (hL : ∀ c, (sv.laws c).OnlyStress)
    {st st' : SimState z K dim SS LS (ForceState K dim)} (h : aflipCall fn pr sv st = .ok st') (M : K)
    (hM : ∀ c ∈ sv.couplings, c.skip = false → 0 ≤ pr.cfl * (sv.domains c.g).cellSize / st.dt ∧
      pr.cfl * (sv.domains c.g).cellSize / st.dt ≤ M)
    (c : Coupling z) (hc : c ∈ sv.couplings) (hs : c.skip = false) :
    ∃ s', st'.world.bodies c.p = .deformable s' ∧ ∀ q, speedSq (s'.velocity q) ≤ M ^ 2 := by
  obtain ⟨wm, x1, x2, x3, x4, h1, h2, h3, h4, h5, rfl⟩ := callWith_ok h
  have hstep : ∀ b ∈ sv.couplings, ∀ y y' : Ctx z K dim SS LS (ForceState K dim),
      aflipG2pCoupling fn pr sv.domains st.dt y b = .ok y' → b.skip = false →
      ∃ s', y'.world.bodies b.p = .deformable s' ∧ ∀ q, speedSq (s'.velocity q) ≤ M ^ 2 := by
    intro b hb y y' hy hbs
    obtain ⟨ker, ic, s, r, hS, hic, hbb, hr, rfl⟩ := aflipG2pCoupling_ok hbs hy
    refine ⟨r.1, setBody_self _ _ _, fun q => ?_⟩
    unfold aflipG2pBody at hr
    split_ifs at hr
    have hr := Except.ok.inj hr
    subst hr
    have := clamp_speed hsqrt (hM b hb hbs).1 (aflipFree pr ic (y.cache.grids b.g) s q)
    refine le_trans ?_ (pow_le_pow_left₀ (hM b hb hbs).1 (hM b hb hbs).2 2)
    rw [show (aflipG2pMls fn.sqrt pr (sv.domains b.g).cellSize st.dt ic (y.cache.grids b.g) s).1.velocity q =
      fun a => aflipFree pr ic (y.cache.grids b.g) s q a * clampFactor fn.sqrt pr.cfl (sv.domains b.g).cellSize st.dt
        (aflipFree pr ic (y.cache.grids b.g) s q) from funext fun a => by rw [aflip_velocity]]
    exact this
  have e3 : ∃ s', x3.world.bodies c.p = .deformable s' ∧ ∀ q, speedSq (s'.velocity q) ≤ M ^ 2 := by
    refine (foldE_establish' (P := fun _ => True)
      (I := fun y => ∃ s', y.world.bodies c.p = .deformable s' ∧ ∀ q, speedSq (s'.velocity q) ≤ M ^ 2) sv.couplings x2 x3 c hc
      trivial (fun _ _ _ _ _ _ => trivial) (fun y y' _ hy => hstep c hc y y' hy hs) ?_ h4).2
    intro b hb y y' _ hI hy
    cases hsb : b.skip with
    | true => rw [aflipG2pCoupling_skip hsb hy]; exact hI
    | false =>
      by_cases hq : c.p = b.p
      · rw [hq]; exact hstep b hb y y' hy hsb
      · obtain ⟨ker, ic, s, r, hS, hic, hbb, hr, rfl⟩ := aflipG2pCoupling_ok hsb hy
        exact (setBody_ne y hq (.deformable r.1)) ▸ hI
  obtain ⟨s, hb, hv⟩ := e3
  have hrel := (law_fold hL st.dt sv.couplings x3 x4 h5).2 c.p
  rw [hb] at hrel
  change ∃ s', x4.world.bodies c.p = .deformable s' ∧ _
  cases hb' : x4.world.bodies c.p with
  | rigid r => rw [hb'] at hrel; exact absurd hrel id
  | deformable s' =>
    rw [hb'] at hrel
    exact ⟨s', rfl, fun q => by rw [hrel.2.1]; exact hv q⟩

end

/-! ### Counterexamples -/

/-- Square root on the rationals, exact on squares of rationals in lowest terms. -/
def ratSqrt (q : ℚ) : ℚ := (Nat.sqrt (q.num.toNat * q.den) : ℚ) / q.den

def sqFns : MathFns ℚ := { ratFns with sqrt := ratSqrt }

/-- Default parameters of `USLAFLIP` (usl_asflip.py:57-77, builder.py:294-362), except that the blend is constant. -/
def exAflipParams : AflipParams ℚ :=
  { alpha := 99 / 100, useDynamicAlpha := false, betaMin := 0, betaMax := 1 / 2, useMls := true
    cutoff := 1 / 10 ^ 7, cfl := 1 / 2 }

/-- A stress-free body translating with velocity (3, 4); time step 1/10 on cells of size 1/2. -/
def exFastState : SimState exSz ℚ 2 Unit (LawState ℚ) (ForceState ℚ 2) :=
  { exState with
    world := { bodies := fun _ => .deformable { exBody with velocity := fun _ => ![3, 4], stress := fun _ => 0 },
               sdfs := Fin.elim0 }
    dt := 1 / 10 }

theorem ratSqrt_lowerRoot : LowerRoot ratSqrt := by
  intro x hx
  have hd : (0 : ℚ) < x.den := by exact_mod_cast x.pos
  refine ⟨by unfold ratSqrt; positivity, ?_⟩
  unfold ratSqrt
  rw [div_pow, div_le_iff₀ (by positivity)]
  have h1 : (Nat.sqrt (x.num.toNat * x.den) : ℚ) ^ 2 ≤ (x.num.toNat : ℚ) * x.den := by
    exact_mod_cast Nat.sqrt_le' _
  have h2 : ((x.num.toNat : ℤ) : ℚ) = x.num := by
    rw [Int.toNat_of_nonneg (Rat.num_nonneg.mpr hx)]
  have h3 : (x.num : ℚ) = x * x.den := (Rat.mul_den_eq_num x).symm
  have h4 : (x.num.toNat : ℚ) = x * x.den := by rw [← h3, ← h2]; rfl
  rw [h4] at h1
  linarith [h1, (by ring : x * (x.den : ℚ) * x.den = x * (x.den : ℚ) ^ 2)]

/-- Square root on the rationals, rounded up. -/
def ratSqrtUp (q : ℚ) : ℚ := ((Nat.sqrt (q.num.toNat * q.den) : ℚ) + 1) / q.den

theorem ratSqrtUp_upperRoot : UpperRoot ratSqrtUp := by
  intro x hx
  have hd : (0 : ℚ) < x.den := by exact_mod_cast x.pos
  refine ⟨by unfold ratSqrtUp; positivity, ?_⟩
  unfold ratSqrtUp
  rw [div_pow, le_div_iff₀ (by positivity)]
  have h1 : (x.num.toNat : ℚ) * x.den ≤ ((Nat.sqrt (x.num.toNat * x.den) : ℚ) + 1) ^ 2 := by
    exact_mod_cast (Nat.lt_succ_sqrt' _).le
  have h2 : ((x.num.toNat : ℤ) : ℚ) = x.num := by
    rw [Int.toNat_of_nonneg (Rat.num_nonneg.mpr hx)]
  have h3 : (x.num : ℚ) = x * x.den := (Rat.mul_den_eq_num x).symm
  have h4 : (x.num.toNat : ℚ) = x * x.den := by rw [← h3, ← h2]; rfl
  rw [h4] at h1
  linarith [h1, (by ring : x * (x.den : ℚ) * x.den = x * (x.den : ℚ) ^ 2)]

set_option maxRecDepth 100000 in
theorem exFast_ok : (aflipCall sqFns exAflipParams exFreeSolver exFastState).isOk = true := by decide +kernel

set_option maxRecDepth 100000 in
theorem exFast_eval : checkOk (aflipCall sqFns exAflipParams exFreeSolver exFastState)
    (fun s => totalMomentum s.world 0 ≠ totalMomentum exFastState.world 0) = true := by decide +kernel

set_option maxRecDepth 100000 in
theorem exFast_moved : checkOk (aflipCall sqFns exAflipParams exFreeSolver exFastState)
    (fun s => (s.world.bodies (0 : Fin 1)).position (0 : Fin 2) = ![1 / 3 + 3 / 10, 9 / 10 + 4 / 10]) = true := by
  decide +kernel

/-- The speed limit destroys momentum: a force-free, stress-free body translating uniformly inside its box, with the default
limit of half a cell per step, loses momentum. -/
theorem aflip_momentum_fails_limit : ∃ st', aflipCall sqFns exAflipParams exFreeSolver exFastState = .ok st' ∧
    ratSqrt (3 ^ 2 + 4 ^ 2) = 5 ∧
    (∀ q, InBox (fun _ => 0) (fun _ => 1) ((exFastState.world.bodies (0 : Fin 1)).position q)) ∧
    totalMomentum st'.world 0 ≠ totalMomentum exFastState.world 0 := by
  obtain ⟨st', h⟩ := isOk_ok exFast_ok
  exact ⟨st', h, by decide +kernel, exBody_inBox, by simpa using checkOk_ok exFast_eval st' h⟩

/-- The displacement is not limited: with `cfl_limit = 1/2`, dt = 1/10 and cells of size 1/2 a point must not move by more
than 1/4 in a step, but it moves by (3/10, 4/10), which has length 1/2. -/
theorem aflip_displacement_fails : ∃ st' s', aflipCall sqFns exAflipParams exFreeSolver exFastState = .ok st' ∧
    st'.world.bodies (0 : Fin 1) = s' ∧
    s'.position (0 : Fin 2) - (exFastState.world.bodies (0 : Fin 1)).position (0 : Fin 2) = ![3 / 10, 4 / 10] ∧
    exAflipParams.cfl * (exFreeSolver.domains (0 : Fin 1)).cellSize = 1 / 4 := by
  obtain ⟨st', h⟩ := isOk_ok exFast_ok
  refine ⟨st', _, h, rfl, ?_, ?_⟩
  · have := checkOk_ok exFast_moved st' h
    simp only [decide_eq_true_eq] at this
    rw [this]
    have e : (exFastState.world.bodies (0 : Fin 1)).position (0 : Fin 2) = ![1 / 3, 9 / 10] := rfl
    rw [e]
    funext d
    fin_cases d <;> norm_num
  · decide +kernel

/-- The parameters with the default dynamic blend and a speed limit that is never reached. -/
def exAflipDyn : AflipParams ℚ := { exAflipParams with useDynamicAlpha := true, cfl := 10 ^ 6 }

/-- A slow stress-free body whose points have different masses. -/
def exSlowState : SimState exSz ℚ 2 Unit (LawState ℚ) (ForceState ℚ 2) :=
  { exState with
    world := { bodies := fun _ => .deformable
                { exBody with position := ![![1 / 3, 9 / 10], ![1 / 4, 3 / 4]], stress := fun _ => 0, mass := ![1, 4] },
               sdfs := Fin.elim0 }
    dt := 1 / 10 }

set_option maxRecDepth 100000 in
theorem exSlow_ok : (aflipCall sqFns exAflipDyn exFreeSolver exSlowState).isOk = true := by decide +kernel

set_option maxRecDepth 100000 in
theorem exSlow_eval : checkOk (aflipCall sqFns exAflipDyn exFreeSolver exSlowState)
    (fun s => totalMomentum s.world 0 ≠ totalMomentum exSlowState.world 0) = true := by decide +kernel

set_option maxRecDepth 100000 in
theorem exSlow_static : checkOk (aflipCall sqFns { exAflipDyn with useDynamicAlpha := false } exFreeSolver exSlowState)
    (fun s => totalMomentum s.world 0 = totalMomentum exSlowState.world 0) = true := by decide +kernel

/-- The dynamic blend (`use_dynamic_alpha=True`, the default) destroys momentum of a force-free, stress-free body inside its
box that stays far below the speed limit. -/
theorem aflip_momentum_fails_dynamic : ∃ st', aflipCall sqFns exAflipDyn exFreeSolver exSlowState = .ok st' ∧
    totalMomentum st'.world 0 ≠ totalMomentum exSlowState.world 0 := by
  obtain ⟨st', h⟩ := isOk_ok exSlow_ok
  exact ⟨st', h, by simpa using checkOk_ok exSlow_eval st' h⟩

/-! ### The theorems on the example scene -/

/-- The default parameters with a constant blend and a higher limit. -/
def exAflipSlow : AflipParams ℚ := { exAflipParams with cfl := 10 }

set_option maxRecDepth 100000 in
theorem exSlow_facts : exRegularB exAflipSlow.cutoff exState.world = true ∧
    (aflipCall sqFns exAflipSlow (exSolver .linear false) exState).isOk = true ∧
    checkOk (aflipCall sqFns exAflipSlow (exSolver .linear false) exState) (fun s => match s.world.bodies (0 : Fin 1) with
      | .rigid _ => false
      | .deformable s' => (List.finRange 2).all fun q =>
          speedSq (s'.velocity q) ≤ (exAflipSlow.cfl * ((exSolver .linear false).domains (0 : Fin 1)).cellSize / exState.dt
            - 1 / 10 ^ 12) ^ 2) = true := by
  decide +kernel

/-- `aflip_step_momentum_partial` on the example scene: mass 3 under gravity -10 for 0.01. -/
example : ∃ st', aflipCall sqFns exAflipSlow (exSolver .linear false) exState = .ok st' ∧
    totalMomentum st'.world 1 = totalMomentum exState.world 1 + (1 / 100) * (3 * -10) := by
  obtain ⟨h1, h2, h3⟩ := exSlow_facts
  obtain ⟨st', h⟩ := isOk_ok h2
  refine ⟨st', h, ?_⟩
  have h3 := checkOk_ok h3 st' h
  have := aflip_step_momentum_partial (sv := exSolver .linear false) ratSqrt_lowerRoot exAflipSlow rfl [([(0 : Fin 1)], 0)]
    (.inl rfl) rfl (fun _ => LibLaw.onlyStress (.elastic 1000 (1 / 4) false)) h (exRegular h1) (fun c hc hs => ⟨?_, ?_⟩) 1
  · rw [this]
    congr 1
    simp [activeSum, exSolver, exCoupling, bodyMass, exState, gridAccel, exBody, MPState.create]
    norm_num
  · obtain rfl : c = exCoupling .linear := by simpa [exSolver] using hc
    norm_num [exAflipSlow, exSolver, exState, GridDomain.create]
  · obtain rfl : c = exCoupling .linear := by simpa [exSolver] using hc
    intro s' hb q
    change st'.world.bodies (0 : Fin 1) = _ at hb
    rw [hb] at h3
    simp only [List.all_eq_true, List.mem_finRange, decide_eq_true_eq, true_implies] at h3
    exact h3 q

set_option maxRecDepth 100000 in
theorem exFastUp_ok : (aflipCall { ratFns with sqrt := ratSqrtUp } exAflipParams exFreeSolver exFastState).isOk = true := by
  decide +kernel

/-- `aflip_speed_limit_partial` on the fast body: its speed 5 is reduced to at most 5/2. -/
example : ∃ st' s', aflipCall { ratFns with sqrt := ratSqrtUp } exAflipParams exFreeSolver exFastState = .ok st' ∧
    st'.world.bodies (0 : Fin 1) = .deformable s' ∧ ∀ q, speedSq (s'.velocity q) ≤ (5 / 2) ^ 2 := by
  obtain ⟨st', h⟩ := isOk_ok exFastUp_ok
  obtain ⟨s', h1, h2⟩ := aflip_speed_limit_partial (sv := exFreeSolver) ratSqrtUp_upperRoot exAflipParams
    (fun _ => LibLaw.onlyStress (.elastic 1000 (1 / 4) false)) h (5 / 2)
    (fun c hc hs => by
      obtain rfl : c = exCoupling .linear := by simpa [exFreeSolver, exSolver] using hc
      norm_num [exAflipParams, exFreeSolver, exSolver, exFastState, exState, GridDomain.create])
    (exCoupling .linear) (by simp [exFreeSolver, exSolver]) rfl
  exact ⟨st', s', h, h1, h2⟩

end Hydrax
