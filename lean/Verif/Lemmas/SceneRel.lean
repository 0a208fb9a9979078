import Verif.Lemmas.Fold

/-!
# What one call does to each body (helper lemmas)
-/

set_option linter.unusedSectionVars false

namespace Hydrax

section
variable {K : Type*} {dim : ℕ}

/-- Lift a relation on material points to bodies; rigid bodies must be unchanged. -/
def Body.Rel (R : ∀ n, MPState K dim n → MPState K dim n → Prop) {n : ℕ} :
    Body K dim n → Body K dim n → Prop
  | .deformable s, .deformable s' => R n s s'
  | .rigid r, .rigid r' => r = r'
  | .deformable _, .rigid _ => False
  | .rigid _, .deformable _ => False

theorem Body.Rel.refl {R : ∀ n, MPState K dim n → MPState K dim n → Prop} (hR : ∀ n s, R n s s) {n : ℕ}
    (b : Body K dim n) : Body.Rel R b b := by
  cases b with
  | deformable s => exact hR n s
  | rigid r => rfl

theorem Body.Rel.trans {R : ∀ n, MPState K dim n → MPState K dim n → Prop}
    (hR : ∀ n a b c, R n a b → R n b c → R n a c) {n : ℕ} {a b c : Body K dim n}
    (h1 : Body.Rel R a b) (h2 : Body.Rel R b c) : Body.Rel R a c := by
  cases a <;> cases b <;> cases c <;> simp only [Body.Rel] at *
  · exact hR _ _ _ _ h1 h2
  · exact h1.trans h2

end

section
variable {z : Sz} {K : Type*} [Field K] [LinearOrder K] [FloorRing K] {dim : ℕ} {SS LS FS : Type*}

theorem setBody_bodies (x : Ctx z K dim SS LS FS) (p q : Fin z.P) (b : Body K dim (z.np p)) :
    (x.setBody p b).world.bodies q = Function.update x.world.bodies p b q := rfl

/-- Replacing body `p` by a related one relates all bodies. -/
theorem rel_setBody {R : ∀ n, MPState K dim n → MPState K dim n → Prop} (hR : ∀ n s, R n s s)
    (x : Ctx z K dim SS LS FS) (p : Fin z.P) (b : Body K dim (z.np p))
    (h : Body.Rel R (x.world.bodies p) b) (q : Fin z.P) :
    Body.Rel R (x.world.bodies q) ((x.setBody p b).world.bodies q) := by
  rw [setBody_bodies]
  by_cases hq : q = p
  · subst hq; simpa using h
  · rw [Function.update_of_ne hq]; exact Body.Rel.refl hR _

/-- Every stored interaction list is one computed by the mapping. -/
def CacheOk (c : Cache z K dim) : Prop :=
  ∀ p g v, c.interactions p g = some v → ∃ (dom : GridDomain K dim) (pos : Fin (z.np p) → Fin dim → K),
    v.2 = compute v.1 dom pos

theorem computeConnectivity_ok (sv : Solver z K dim SS LS FS) (w : World z K dim SS) (p : Fin z.P)
    (g : Fin z.G) (v) (h : computeConnectivity sv w p g = some v) :
    v.2 = compute v.1 (sv.domains g) (w.bodies p).position := by
  unfold computeConnectivity at h
  have key : ∀ (cs : List (Coupling z)) (d : Inter z K dim),
      (∀ p g v, d p g = some v → v.2 = compute v.1 (sv.domains g) (w.bodies p).position) →
      ∀ p g v, cs.foldl (connStep sv w) d p g = some v →
        v.2 = compute v.1 (sv.domains g) (w.bodies p).position := by
    intro cs
    induction cs with
    | nil => intro d hd p g v hv; exact hd p g v hv
    | cons c cs ih =>
      intro d hd
      refine ih _ ?_
      intro p g v hv
      unfold connStep Inter.set at hv
      by_cases hp : p = c.p
      · subst hp
        rw [Function.update_self] at hv
        by_cases hg : g = c.g
        · subst hg
          rw [Function.update_self] at hv
          have := Option.some.inj hv
          subst this; rfl
        · rw [Function.update_of_ne hg] at hv; exact hd _ _ _ hv
      · rw [Function.update_of_ne hp] at hv; exact hd _ _ _ hv
  exact key sv.couplings _ (by simp) p g v h

/-- Writing ones over a mask that is already one changes nothing. -/
theorem maskStep_eq (compatible) (inter : Inter z K dim) (c : Coupling z)
    (h1 : ∀ p g v, inter p g = some v → v.2.cpicMask = fun _ => 1) :
    maskStep compatible inter c = inter := by
  unfold maskStep Inter.set
  have hm : ((inter c.p c.g).map fun ic => (⟨ic.1, withMask ic.2 (compatible c.p c.g)⟩ :
      Σ ker : Kernel, InteractionCache K (z.np c.p) (windowSize ker dim))) = inter c.p c.g := by
    cases hv : inter c.p c.g with
    | none => rfl
    | some v =>
      have h2 := h1 _ _ _ hv
      obtain ⟨ker, ic⟩ := v
      simp only at h2
      simp only [Option.map_some, withMask, ← h2]
  rw [hm, Function.update_eq_self, Function.update_eq_self]

theorem sdfCorrection_eq (sv : Solver z K dim SS LS FS) (compatible) (inter : Inter z K dim)
    (h1 : ∀ p g v, inter p g = some v → v.2.cpicMask = fun _ => 1) :
    sdfCorrection sv inter compatible = inter := by
  unfold sdfCorrection
  split_ifs with hD
  · rfl
  · induction sv.couplings with
    | nil => rfl
    | cons c cs ih => rw [List.foldl_cons, maskStep_eq compatible inter c h1]; exact ih

theorem buildCache_interactions (fn : MathFns K) (sv : Solver z K dim SS LS FS) (w : World z K dim SS)
    (dt : K) : (buildCache fn sv w dt).interactions = computeConnectivity sv w :=
  sdfCorrection_eq _ _ _ (fun p g v h => by
    rw [computeConnectivity_ok sv w p g v h]; rfl)

theorem buildCache_ok (fn : MathFns K) (sv : Solver z K dim SS LS FS) (w : World z K dim SS)
    (dt : K) : CacheOk (buildCache fn sv w dt) := by
  intro p g v h
  rw [buildCache_interactions] at h
  exact ⟨_, _, computeConnectivity_ok sv w p g v h⟩

end

section
variable {z : Sz} {K : Type*} [Field K] [LinearOrder K] [FloorRing K] {dim : ℕ} {SS LS : Type*}

/-- A relation on material points that every operation of a solver step respects. -/
structure BodyClosed (fn : MathFns K) (laws : Fin z.C → Law K dim LS)
    (R : ∀ n, MPState K dim n → MPState K dim n → Prop) : Prop where
  refl : ∀ n s, R n s s
  trans : ∀ n a b c, R n a b → R n b c → R n a c
  damp : ∀ n s a, R n s (dampingBody a s)
  reset : ∀ n s, R n s (resetBody s)
  g2p : ∀ n s ker (dom : GridDomain K dim) (pos : Fin n → Fin dim → K) alpha dt ghost gr,
    R n s (g2pBody alpha dt (compute ker dom pos) ghost gr s)
  aflip : ∀ n s ker (dom : GridDomain K dim) (pos : Fin n → Fin dim → K) pr cell dt gr r,
    aflipG2pBody fn.sqrt pr cell dt (compute ker dom pos) gr s = .ok r → R n s r.1
  stress : ∀ n s σ, R n s { s with stress := σ }
  shear : ∀ n s (c : Fin z.C), R n s (removeShear fn (laws c).requiresFReset s)

variable {fn : MathFns K} {sv : Solver z K dim SS LS (ForceState K dim)}
  {R : ∀ n, MPState K dim n → MPState K dim n → Prop}

/-- The relation between contexts used for all stages after the cache is built. -/
def CtxRel (R : ∀ n, MPState K dim n → MPState K dim n → Prop)
    (x x' : Ctx z K dim SS LS (ForceState K dim)) : Prop :=
  (∀ p, Body.Rel R (x.world.bodies p) (x'.world.bodies p)) ∧
    x'.cache.interactions = x.cache.interactions

theorem CtxRel.refl (hR : ∀ n s, R n s s) (x : Ctx z K dim SS LS (ForceState K dim)) : CtxRel R x x :=
  ⟨fun _ => Body.Rel.refl hR _, rfl⟩

theorem CtxRel.trans (hR : ∀ n a b c, R n a b → R n b c → R n a c)
    (x y w : Ctx z K dim SS LS (ForceState K dim)) (h1 : CtxRel R x y) (h2 : CtxRel R y w) :
    CtxRel R x w :=
  ⟨fun p => (h1.1 p).trans hR (h2.1 p), h2.2.trans h1.2⟩

theorem ctxRel_of_world_eq (hR : ∀ n s, R n s s) {x x' : Ctx z K dim SS LS (ForceState K dim)}
    (h : x'.world = x.world) (hi : x'.cache.interactions = x.cache.interactions) : CtxRel R x x' :=
  ⟨fun p => by rw [h]; exact Body.Rel.refl hR _, hi⟩

theorem mapGrids_world (f : GridArrays K dim → GridArrays K dim) (gs : List (Fin z.G))
    (x : Ctx z K dim SS LS (ForceState K dim)) :
    (mapGrids f gs x).world = x.world ∧ (mapGrids f gs x).mech = x.mech ∧
      (mapGrids f gs x).cache.interactions = x.cache.interactions ∧
      (mapGrids f gs x).cache.mpGeoms = x.cache.mpGeoms := by
  unfold mapGrids
  induction gs generalizing x with
  | nil => exact ⟨rfl, rfl, rfl, rfl⟩
  | cons g gs ih => rw [List.foldl_cons]; exact ih _

theorem libForce_kinematics {f : ForceHooks z K dim SS LS (ForceState K dim)} (hf : LibForce f)
    (w : World z K dim SS) (m) (dt time : K) : f.kinematics w m dt time = .ok (w, m) := by
  cases hf <;> rfl

theorem libForce_gridForces {f : ForceHooks z K dim SS LS (ForceState K dim)} (hf : LibForce f)
    (x x') (dt time : K) (h : f.gridForces x dt time = .ok x') :
    x'.world = x.world ∧ x'.mech = x.mech ∧ x'.cache.interactions = x.cache.interactions ∧
      x'.cache.mpGeoms = x.cache.mpGeoms := by
  cases hf with
  | gravity onGrid ps gs fIdx =>
    simp only [gravityForce] at h
    split_ifs at h
    · have := Except.ok.inj h; subst this; exact ⟨rfl, rfl, rfl, rfl⟩
    · obtain ⟨a, -, h⟩ := andThen_ok.mp h
      have := Except.ok.inj h; subst this
      exact mapGrids_world _ _ _
  | damping onGrid ps gs fIdx =>
    simp only [dampingForce] at h
    split_ifs at h
    · have := Except.ok.inj h; subst this; exact ⟨rfl, rfl, rfl, rfl⟩
    · obtain ⟨a, -, h⟩ := andThen_ok.mp h
      have := Except.ok.inj h; subst this
      exact mapGrids_world _ _ _
  | sdfCollider fn sdf gs gap base =>
    have := Except.ok.inj h; subst this; exact ⟨rfl, rfl, rfl, rfl⟩
  | gridContact =>
    have := Except.ok.inj h; subst this; exact ⟨rfl, rfl, rfl, rfl⟩

theorem libForce_gridMoments {f : ForceHooks z K dim SS LS (ForceState K dim)} (hf : LibForce f)
    (x x') (dt time : K) (h : f.gridMoments x dt time = .ok x') :
    x'.world = x.world ∧ x'.mech = x.mech ∧ x'.cache.interactions = x.cache.interactions ∧
      x'.cache.mpGeoms = x.cache.mpGeoms := by
  cases hf with
  | gravity onGrid ps gs fIdx =>
    have := Except.ok.inj h; subst this; exact ⟨rfl, rfl, rfl, rfl⟩
  | damping onGrid ps gs fIdx =>
    have := Except.ok.inj h; subst this; exact ⟨rfl, rfl, rfl, rfl⟩
  | sdfCollider fn sdf gs gap base =>
    cases sdf with
    | none =>
      have := Except.ok.inj h; subst this; exact ⟨rfl, rfl, rfl, rfl⟩
    | some d =>
      have := Except.ok.inj h; subst this
      clear h
      induction gs generalizing x with
      | nil => exact ⟨rfl, rfl, rfl, rfl⟩
      | cons g gs ih => rw [List.foldl_cons]; exact ih _
  | gridContact => simp [gridContactForce] at h

/-- Particle damping changes only the point forces of the listed bodies. -/
theorem libForce_preP2g (hd : ∀ n s a, R n s (dampingBody a s)) (hrefl : ∀ n s, R n s s)
    (htrans : ∀ n a b c, R n a b → R n b c → R n a c)
    {f : ForceHooks z K dim SS LS (ForceState K dim)} (hf : LibForce f)
    (x x') (dt time : K) (h : f.preP2g x dt time = .ok x') :
    CtxRel R x x' ∧ x'.mech = x.mech ∧ x'.cache = x.cache := by
  cases hf with
  | gravity onGrid ps gs fIdx =>
    simp only [gravityForce] at h
    split_ifs at h
    · have := Except.ok.inj h; subst this; exact ⟨CtxRel.refl hrefl _, rfl, rfl⟩
    · split at h
      · exact absurd h (by simp)
      · have := Except.ok.inj h; subst this; exact ⟨CtxRel.refl hrefl _, rfl, rfl⟩
    · obtain ⟨a, -, h⟩ := andThen_ok.mp h
      exact absurd h (by simp)
  | damping onGrid ps gs fIdx =>
    simp only [dampingForce] at h
    split_ifs at h
    · have := Except.ok.inj h; subst this; exact ⟨CtxRel.refl hrefl _, rfl, rfl⟩
    · obtain ⟨a, -, h⟩ := andThen_ok.mp h
      refine foldE_rel (R := fun x x' => CtxRel R x x' ∧ x'.mech = x.mech ∧ x'.cache = x.cache)
        (fun s => ⟨CtxRel.refl hrefl _, rfl, rfl⟩)
        (fun a b c h1 h2 => ⟨CtxRel.trans htrans _ _ _ h1.1 h2.1, h2.2.1.trans h1.2.1,
          h2.2.2.trans h1.2.2⟩) ps x x' ?_ h
      intro p _ y y' hy
      split at hy
      · exact absurd hy (by simp)
      · rename_i s hs
        have := Except.ok.inj hy; subst this
        exact ⟨⟨rel_setBody hrefl y p _ (by rw [hs]; exact hd _ _ _), rfl⟩, rfl, rfl⟩
  | sdfCollider fn sdf gs gap base =>
    have := Except.ok.inj h; subst this; exact ⟨CtxRel.refl hrefl _, rfl, rfl⟩
  | gridContact =>
    have := Except.ok.inj h; subst this; exact ⟨CtxRel.refl hrefl _, rfl, rfl⟩

theorem kinematicUpdate_lib (hf : ∀ f ∈ sv.forces, LibForce f) (w : World z K dim SS) (m) (dt time : K)
    (wm) (h : kinematicUpdate sv w m dt time = .ok wm) :
    wm.1.bodies = w.bodies ∧ wm.2 = m ∧ wm.1.sdfs = fun i => (sv.sdfs i).updateKin (w.sdfs i) dt := by
  unfold kinematicUpdate at h
  obtain ⟨a, h1, h2⟩ := andThen_ok.mp h
  have ha : a = (w, m) := by
    refine foldE_inv (I := fun a => a = (w, m)) sv.forces (w, m) a rfl ?_ h1
    rintro f hfm s s' rfl hs
    rw [libForce_kinematics (hf f hfm)] at hs
    exact (Except.ok.inj hs).symm
  subst ha
  have := Except.ok.inj h2; subst this
  exact ⟨rfl, rfl, rfl⟩

theorem reset_rel (hr : ∀ n s, R n s (resetBody s)) (hrefl : ∀ n s, R n s s) (w : World z K dim SS)
    (p : Fin z.P) : Body.Rel R (w.bodies p) ((resetMaterialPoints sv w).bodies p) := by
  simp only [resetMaterialPoints]
  split_ifs
  · cases hb : w.bodies p with
    | deformable s => exact hr _ _
    | rigid s => rfl
  · exact Body.Rel.refl hrefl _

theorem p2gCoupling_world (x x' : Ctx z K dim SS LS (ForceState K dim)) (c : Coupling z)
    (h : p2gCoupling x c = .ok x') :
    x'.world = x.world ∧ x'.mech = x.mech ∧ x'.cache.interactions = x.cache.interactions ∧
      x'.cache.mpGeoms = x.cache.mpGeoms := by
  unfold p2gCoupling at h
  split_ifs at h
  · have := Except.ok.inj h; subst this; exact ⟨rfl, rfl, rfl, rfl⟩
  · split at h
    · exact absurd h (by simp)
    · split at h
      · exact absurd h (by simp)
      · split_ifs at h
        have := Except.ok.inj h; subst this; exact ⟨rfl, rfl, rfl, rfl⟩

theorem aflipP2gCoupling_world (dom : Fin z.G → GridDomain K dim)
    (x x' : Ctx z K dim SS LS (ForceState K dim)) (c : Coupling z)
    (h : aflipP2gCoupling dom x c = .ok x') :
    x'.world = x.world ∧ x'.mech = x.mech ∧ x'.cache.interactions = x.cache.interactions ∧
      x'.cache.mpGeoms = x.cache.mpGeoms := by
  unfold aflipP2gCoupling at h
  split_ifs at h
  · have := Except.ok.inj h; subst this; exact ⟨rfl, rfl, rfl, rfl⟩
  · split at h
    · exact absurd h (by simp)
    · split at h
      · exact absurd h (by simp)
      · split_ifs at h
        have := Except.ok.inj h; subst this; exact ⟨rfl, rfl, rfl, rfl⟩

theorem integrateCoupling_world (dt : K) (x x' : Ctx z K dim SS LS (ForceState K dim)) (c : Coupling z)
    (h : integrateCoupling dt x c = .ok x') :
    x'.world = x.world ∧ x'.mech = x.mech ∧ x'.cache.interactions = x.cache.interactions ∧
      x'.cache.mpGeoms = x.cache.mpGeoms := by
  unfold integrateCoupling at h
  split_ifs at h <;> (have := Except.ok.inj h; subst this; exact ⟨rfl, rfl, rfl, rfl⟩)

theorem same_of_fold {α : Type*}
    {f : Ctx z K dim SS LS (ForceState K dim) → α → Except PyErr (Ctx z K dim SS LS (ForceState K dim))}
    (l : List α) (x x') (hf : ∀ a ∈ l, ∀ x x', f x a = .ok x' →
      x'.world = x.world ∧ x'.mech = x.mech ∧ x'.cache.interactions = x.cache.interactions ∧
      x'.cache.mpGeoms = x.cache.mpGeoms)
    (h : foldE f x l = .ok x') :
    x'.world = x.world ∧ x'.mech = x.mech ∧ x'.cache.interactions = x.cache.interactions ∧
      x'.cache.mpGeoms = x.cache.mpGeoms :=
  foldE_rel (R := fun (x x' : Ctx z K dim SS LS (ForceState K dim)) =>
      x'.world = x.world ∧ x'.mech = x.mech ∧ x'.cache.interactions = x.cache.interactions ∧
      x'.cache.mpGeoms = x.cache.mpGeoms)
    (fun _ => ⟨rfl, rfl, rfl, rfl⟩)
    (fun _ _ _ h1 h2 => ⟨h2.1.trans h1.1, h2.2.1.trans h1.2.1, h2.2.2.1.trans h1.2.2.1,
      h2.2.2.2.trans h1.2.2.2⟩) l x x' hf h

theorem integrateGrid_lib (hf : ∀ f ∈ sv.forces, LibForce f) (x x') (dt time : K)
    (h : integrateGrid sv x dt time = .ok x') :
    x'.world = x.world ∧ x'.mech = x.mech ∧ x'.cache.interactions = x.cache.interactions ∧
      x'.cache.mpGeoms = x.cache.mpGeoms := by
  unfold integrateGrid at h
  obtain ⟨x1, h1, h⟩ := andThen_ok.mp h
  obtain ⟨x2, h2, h3⟩ := andThen_ok.mp h
  have e1 := same_of_fold sv.forces x x1
    (fun f hfm x x' hx => libForce_gridForces (hf f hfm) x x' dt time hx) h1
  have e2 := same_of_fold sv.couplings x1 x2
    (fun c _ x x' hx => integrateCoupling_world dt x x' c hx) h2
  have e3 := same_of_fold sv.forces x2 x'
    (fun f hfm x x' hx => libForce_gridMoments (hf f hfm) x x' dt time hx) h3
  exact ⟨e3.1.trans (e2.1.trans e1.1), e3.2.1.trans (e2.2.1.trans e1.2.1),
    e3.2.2.1.trans (e2.2.2.1.trans e1.2.2.1), e3.2.2.2.trans (e2.2.2.2.trans e1.2.2.2)⟩

theorem preP2g_lib (hd : ∀ n s a, R n s (dampingBody a s)) (hrefl : ∀ n s, R n s s)
    (htrans : ∀ n a b c, R n a b → R n b c → R n a c) (hf : ∀ f ∈ sv.forces, LibForce f)
    (x x') (dt time : K) (h : runHook ForceHooks.preP2g sv.forces x dt time = .ok x') :
    CtxRel R x x' ∧ x'.mech = x.mech ∧ x'.cache = x.cache :=
  foldE_rel (R := fun x x' => CtxRel R x x' ∧ x'.mech = x.mech ∧ x'.cache = x.cache)
    (fun _ => ⟨CtxRel.refl hrefl _, rfl, rfl⟩)
    (fun _ _ _ h1 h2 => ⟨CtxRel.trans htrans _ _ _ h1.1 h2.1, h2.2.1.trans h1.2.1,
      h2.2.2.trans h1.2.2⟩) sv.forces x x'
    (fun f hfm x x' hx => libForce_preP2g hd hrefl htrans (hf f hfm) x x' dt time hx) h

theorem g2pCoupling_rel (hC : BodyClosed fn sv.laws R) (alpha dt : K)
    (x x' : Ctx z K dim SS LS (ForceState K dim)) (hx : CacheOk x.cache) (c : Coupling z)
    (h : g2pCoupling alpha dt x c = .ok x') : CtxRel R x x' ∧ x'.cache = x.cache := by
  unfold g2pCoupling at h
  by_cases hskip : c.skip = true
  · rw [if_pos hskip] at h
    have := Except.ok.inj h; subst this; exact ⟨CtxRel.refl hC.refl _, rfl⟩
  · rw [if_neg hskip] at h
    split at h
    · exact absurd h (by simp)
    · rename_i ker ic hic
      split at h
      · exact absurd h (by simp)
      · rename_i s hs
        split_ifs at h
        have := Except.ok.inj h; subst this
        obtain ⟨dom, pos, hcp⟩ := hx _ _ _ hic
        simp only at hcp
        refine ⟨⟨rel_setBody hC.refl x c.p _ ?_, rfl⟩, rfl⟩
        rw [hs, hcp]
        exact hC.g2p _ _ _ _ _ _ _ _ _

theorem aflipG2pCoupling_rel (hC : BodyClosed fn sv.laws R) (pr : AflipParams K)
    (dom : Fin z.G → GridDomain K dim) (dt : K)
    (x x' : Ctx z K dim SS LS (ForceState K dim)) (hx : CacheOk x.cache) (c : Coupling z)
    (h : aflipG2pCoupling fn pr dom dt x c = .ok x') : CtxRel R x x' ∧ x'.cache = x.cache := by
  unfold aflipG2pCoupling at h
  by_cases hskip : c.skip = true
  · rw [if_pos hskip] at h
    have := Except.ok.inj h; subst this; exact ⟨CtxRel.refl hC.refl _, rfl⟩
  · rw [if_neg hskip] at h
    split at h
    · exact absurd h (by simp)
    · rename_i ker ic hic
      split at h
      · exact absurd h (by simp)
      · rename_i s hs
        by_cases hS : c.p.val < z.S
        · rw [dif_pos hS] at h
          obtain ⟨r, hr, h⟩ := andThen_ok.mp h
          have := Except.ok.inj h; subst this
          obtain ⟨dom, pos, hcp⟩ := hx _ _ _ hic
          simp only at hcp
          refine ⟨⟨rel_setBody hC.refl x c.p _ ?_, rfl⟩, rfl⟩
          rw [hs]
          rw [hcp] at hr
          exact hC.aflip _ _ _ _ _ _ _ _ _ _ hr
        · rw [dif_neg hS] at h
          exact absurd h (by simp)

theorem lawCoupling_rel (hC : BodyClosed fn sv.laws R) (hL : ∀ c, (sv.laws c).OnlyStress) (dt : K)
    (x x' : Ctx z K dim SS LS (ForceState K dim)) (c : Coupling z)
    (h : lawCoupling fn sv.laws dt x c = .ok x') : CtxRel R x x' := by
  unfold lawCoupling at h
  split_ifs at h
  · have := Except.ok.inj h; subst this; exact CtxRel.refl hC.refl _
  · split at h
    · exact absurd h (by simp)
    · rename_i s hs
      obtain ⟨r, hr, h⟩ := andThen_ok.mp h
      have := Except.ok.inj h; subst this
      refine ⟨rel_setBody hC.refl x c.p _ ?_, rfl⟩
      rw [hs]
      have h1 := hC.stress _ s r.1.stress
      rw [← hL c.c s _ dt r hr] at h1
      exact hC.trans _ _ _ _ h1 (hC.shear _ _ _)

/-- Common part of both solvers. -/
theorem callWith_rel (hC : BodyClosed fn sv.laws R) (hL : ∀ c, (sv.laws c).OnlyStress)
    (hf : ∀ f ∈ sv.forces, LibForce f)
    {p2gC : Ctx z K dim SS LS (ForceState K dim) → Coupling z →
      Except PyErr (Ctx z K dim SS LS (ForceState K dim))} {p2g g2p}
    (hp : p2g = fun x dt time => andThen (runHook ForceHooks.preP2g sv.forces x dt time)
      fun x => foldE p2gC x sv.couplings)
    (hg : ∀ x x' dt time, g2p x dt time = .ok x' → CacheOk x.cache →
      (∀ p, Body.Rel R (x.world.bodies p) (x'.world.bodies p)))
    (hpc : ∀ x x' c, p2gC x c = .ok x' → x'.world = x.world ∧ x'.mech = x.mech ∧
      x'.cache.interactions = x.cache.interactions ∧ x'.cache.mpGeoms = x.cache.mpGeoms)
    (st st' : SimState z K dim SS LS (ForceState K dim)) (h : callWith fn sv p2g g2p st = .ok st')
    (p : Fin z.P) : Body.Rel R (st.world.bodies p) (st'.world.bodies p) := by
  obtain ⟨wm, x1, x2, x3, x4, h1, h2, h3, h4, h5, rfl⟩ := callWith_ok h
  have hk := kinematicUpdate_lib hf _ _ _ _ _ h1
  subst hp
  obtain ⟨x0, h20, h21⟩ := andThen_ok.mp h2
  have r0 := preP2g_lib hC.damp hC.refl hC.trans hf _ _ _ _ h20
  have r1 := same_of_fold sv.couplings x0 x1 (fun c _ x x' hx => hpc x x' c hx) h21
  have r2 := integrateGrid_lib hf _ _ _ _ h3
  have hok : CacheOk x2.cache := by
    intro p g v hv
    rw [r2.2.2.1, r1.2.2.1, r0.2.2] at hv
    exact buildCache_ok fn sv _ _ p g v hv
  have r3 := hg x2 x3 _ _ h4 hok p
  have r4 : CtxRel R x3 x4 := foldE_rel (CtxRel.refl hC.refl) (CtxRel.trans hC.trans) sv.couplings x3 x4
    (fun c _ x x' hx => lawCoupling_rel hC hL _ x x' c hx) h5
  have ra : Body.Rel R (st.world.bodies p) ((resetMaterialPoints sv wm.1).bodies p) := by
    rw [← hk.1]; exact reset_rel hC.reset hC.refl _ _
  have rb := r0.1.1 p
  have rc : x2.world.bodies p = x0.world.bodies p := by rw [r2.1, r1.1]
  rw [rc] at r3
  exact (ra.trans hC.trans rb).trans hC.trans (r3.trans hC.trans (r4.1 p))

/-- A closed relation holds between the bodies before and after a USL call. -/
theorem uslCall_rel (hC : BodyClosed fn sv.laws R) (hL : ∀ c, (sv.laws c).OnlyStress)
    (hf : ∀ f ∈ sv.forces, LibForce f) (st st' : SimState z K dim SS LS (ForceState K dim))
    (h : uslCall fn sv st = .ok st') (p : Fin z.P) :
    Body.Rel R (st.world.bodies p) (st'.world.bodies p) := by
  refine callWith_rel hC hL hf (p2gC := p2gCoupling)
    (g2p := uslG2p sv) rfl ?_ (fun x x' c => p2gCoupling_world x x' c) st st' h p
  intro x x' dt time hx hok
  have : CacheOk x.cache → (CtxRel R x x' ∧ x'.cache = x.cache) :=
    foldE_rel (R := fun x x' : Ctx z K dim SS LS (ForceState K dim) =>
        CacheOk x.cache → (CtxRel R x x' ∧ x'.cache = x.cache))
      (fun x _ => ⟨CtxRel.refl hC.refl _, rfl⟩)
      (fun a b c h1 h2 ha => ⟨CtxRel.trans hC.trans _ _ _ (h1 ha).1 (h2 ((h1 ha).2 ▸ ha)).1,
        (h2 ((h1 ha).2 ▸ ha)).2.trans (h1 ha).2⟩) sv.couplings x x'
      (fun c _ y y' hy hyo => g2pCoupling_rel hC sv.alpha dt y y' hyo c hy) hx
  exact (this hok).1.1

/-- A closed relation holds between the bodies before and after an ASFLIP call. -/
theorem aflipCall_rel (hC : BodyClosed fn sv.laws R) (hL : ∀ c, (sv.laws c).OnlyStress)
    (hf : ∀ f ∈ sv.forces, LibForce f) (pr : AflipParams K)
    (st st' : SimState z K dim SS LS (ForceState K dim))
    (h : aflipCall fn pr sv st = .ok st') (p : Fin z.P) :
    Body.Rel R (st.world.bodies p) (st'.world.bodies p) := by
  refine callWith_rel hC hL hf (p2gC := aflipP2gCoupling sv.domains)
    (g2p := aflipG2p fn pr sv) rfl ?_ (fun x x' c => aflipP2gCoupling_world _ x x' c) st st' h p
  intro x x' dt time hx hok
  have : CacheOk x.cache → (CtxRel R x x' ∧ x'.cache = x.cache) :=
    foldE_rel (R := fun x x' : Ctx z K dim SS LS (ForceState K dim) =>
        CacheOk x.cache → (CtxRel R x x' ∧ x'.cache = x.cache))
      (fun x _ => ⟨CtxRel.refl hC.refl _, rfl⟩)
      (fun a b c h1 h2 ha => ⟨CtxRel.trans hC.trans _ _ _ (h1 ha).1 (h2 ((h1 ha).2 ▸ ha)).1,
        (h2 ((h1 ha).2 ▸ ha)).2.trans (h1 ha).2⟩) sv.couplings x x'
      (fun c _ y y' hy hyo => aflipG2pCoupling_rel hC pr sv.domains dt y y' hyo c hy) hx
  exact (this hok).1.1

end
end Hydrax
