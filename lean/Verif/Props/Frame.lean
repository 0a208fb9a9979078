import Verif.Props.Invariants

/-!
# Properties C19, C55, C63, C66: what a call leaves alone, and what it keeps for the next call
-/

set_option linter.unusedSectionVars false

namespace Hydrax

section
variable {z : Sz} {K : Type*} [Field K] [LinearOrder K] [FloorRing K] {dim : ℕ} {SS LS : Type*}
  {fn : MathFns K} {sv : Solver z K dim SS LS (ForceState K dim)}
  {call : SimState z K dim SS LS (ForceState K dim) →
    Except PyErr (SimState z K dim SS LS (ForceState K dim))}

/-! ### C19 -/

/-- No coupling runs the material-point logic on body `p`. -/
def Inactive (sv : Solver z K dim SS LS (ForceState K dim)) (p : Fin z.P) : Prop :=
  ∀ c ∈ sv.couplings, c.p = p → c.skip = true

theorem g2p_frame {p : Fin z.P} (hp : Inactive sv p)
    {g2p : Ctx z K dim SS LS (ForceState K dim) → Coupling z →
      Except PyErr (Ctx z K dim SS LS (ForceState K dim))} {dt : K}
    (hg : g2p = g2pCoupling sv.alpha dt ∨ ∃ pr, g2p = aflipG2pCoupling fn pr sv.domains dt)
    {x x' : Ctx z K dim SS LS (ForceState K dim)} (h : foldE g2p x sv.couplings = .ok x') :
    x'.world.bodies p = x.world.bodies p := by
  refine foldE_rel (R := fun x x' : Ctx z K dim SS LS (ForceState K dim) =>
    x'.world.bodies p = x.world.bodies p) (fun _ => rfl) (fun _ _ _ h1 h2 => h2.trans h1) sv.couplings
    x x' ?_ h
  intro c hc y y' hy
  rcases hg with rfl | ⟨pr, rfl⟩
  · cases hs : c.skip with
    | true => rw [g2pCoupling_skip hs hy]
    | false =>
      obtain ⟨ker, ic, s, -, -, rfl⟩ := g2pCoupling_ok hs hy
      refine setBody_ne _ (fun hq => ?_) _
      have := hp c hc hq.symm
      rw [hs] at this; exact absurd this (by simp)
  · cases hs : c.skip with
    | true => rw [aflipG2pCoupling_skip hs hy]
    | false =>
      obtain ⟨ker, ic, s, r, hS, -, -, -, rfl⟩ := aflipG2pCoupling_ok hs hy
      refine setBody_ne y (fun hq => ?_) (.deformable r.1)
      have := hp c hc hq.symm
      rw [hs] at this; exact absurd this (by simp)

theorem law_frame {p : Fin z.P} (hp : Inactive sv p) {dt : K}
    {x x' : Ctx z K dim SS LS (ForceState K dim)}
    (h : foldE (lawCoupling fn sv.laws dt) x sv.couplings = .ok x') :
    x'.world.bodies p = x.world.bodies p := by
  refine foldE_rel (R := fun x x' : Ctx z K dim SS LS (ForceState K dim) =>
    x'.world.bodies p = x.world.bodies p) (fun _ => rfl) (fun _ _ _ h1 h2 => h2.trans h1) sv.couplings
    x x' ?_ h
  intro c hc y y' hy
  cases hs : c.skip with
  | true => rw [lawCoupling_skip hs hy]
  | false =>
    obtain ⟨s, r, -, -, rfl⟩ := lawCoupling_ok hs hy
    refine setBody_ne y (fun hq => ?_) (.deformable (removeShear fn (sv.laws c.c).requiresFReset r.1))
    have := hp c hc hq.symm
    rw [hs] at this; exact absurd this (by simp)

/-- Only the arrays `L_stack` and `force_stack` may differ. -/
def SameButLF {n : ℕ} (s s' : MPState K dim n) : Prop := s' = { s with L := s'.L, force := s'.force }

theorem SameButLF.refl {n : ℕ} (s : MPState K dim n) : SameButLF s s := rfl

theorem SameButLF.trans {n : ℕ} {a b c : MPState K dim n} (h1 : SameButLF a b) (h2 : SameButLF b c) :
    SameButLF a c := by
  unfold SameButLF at *
  rw [h2, h1]

theorem inactive_call (hf : ∀ f ∈ sv.forces, LibForce f) (hcall : IsSolverCall fn sv call)
    {p : Fin z.P} (hp : Inactive sv p) {st st' : SimState z K dim SS LS (ForceState K dim)}
    (h : call st = .ok st') :
    Body.Rel (fun _ s s' => SameButLF s s') (st.world.bodies p) (st'.world.bodies p) := by
  obtain ⟨w, x0, x2, x3, x4, g2p, hw, h0, h02, -, hg, h3, h4, h5, -, -⟩ := call_stages hf hcall h
  have r0 := (preP2g_lib (R := fun _ s s' => SameButLF s s') (fun _ _ _ => rfl)
    (fun _ => SameButLF.refl) (fun _ _ _ _ => SameButLF.trans) hf _ _ _ _ h0).1.1 p
  have rr := reset_rel (sv := sv) (R := fun _ s s' => SameButLF s s') (fun _ _ => rfl)
    (fun _ => SameButLF.refl) w p
  rw [h5, law_frame hp h4, g2p_frame hp hg h3, h02]
  rw [hw] at rr
  exact Body.Rel.trans (R := fun _ s s' => SameButLF s s') (fun _ _ _ _ => SameButLF.trans) rr r0

/-- **C19.** A body that no coupling moves (uncoupled, or `skip_mpm_logic=True`) is not touched by any
number of steps: a rigid one is exactly unchanged; of a deformable one every array except the scratch
arrays `L_stack` and `force_stack` (which `_reset_material_points` clears at the start of a step). -/
theorem inactive_body_unchanged (hf : ∀ f ∈ sv.forces, LibForce f) (hcall : IsSolverCall fn sv call)
    (p : Fin z.P) (hp : Inactive sv p) (k : ℕ) (st st' : SimState z K dim SS LS (ForceState K dim))
    (h : runSteps call k st = .ok st') :
    (∀ r, st.world.bodies p = .rigid r → st'.world.bodies p = .rigid r) ∧
    (∀ s, st.world.bodies p = .deformable s →
      ∃ L force, st'.world.bodies p = .deformable { s with L := L, force := force }) := by
  have hr := runSteps_rel (R := fun st st' : SimState z K dim SS LS (ForceState K dim) =>
      Body.Rel (fun _ s s' => SameButLF s s') (st.world.bodies p) (st'.world.bodies p))
    (fun _ => Body.Rel.refl (fun _ => SameButLF.refl) _)
    (fun _ _ _ h1 h2 => Body.Rel.trans (R := fun _ s s' => SameButLF s s') (fun _ _ _ _ => SameButLF.trans) h1 h2)
    (fun st st' h => inactive_call hf hcall hp h) k st st' h
  constructor
  · intro r hs
    rw [hs] at hr
    cases hb : st'.world.bodies p with
    | deformable s' => rw [hb] at hr; exact absurd hr id
    | rigid r' => rw [hb] at hr; exact congrArg _ (Eq.symm hr)
  · intro s hs
    rw [hs] at hr
    cases hb : st'.world.bodies p with
    | rigid r' => rw [hb] at hr; exact absurd hr id
    | deformable s' => rw [hb] at hr; exact ⟨s'.L, s'.force, congrArg _ hr⟩

/-- The force does not act on the points of body `p` (only point damping does). -/
inductive ForceOff (p : Fin z.P) : ForceHooks z K dim SS LS (ForceState K dim) → Prop
  | gravity (onGrid ps gs fIdx) : ForceOff p (gravityForce onGrid ps gs fIdx)
  | damping (onGrid ps gs fIdx) (h : onGrid = true ∨ p ∉ ps) : ForceOff p (dampingForce onGrid ps gs fIdx)
  | sdfCollider (fn sdf gs gap base) : ForceOff p (sdfColliderForce fn sdf gs gap base)
  | gridContact : ForceOff p gridContactForce

theorem ForceOff.lib {p : Fin z.P} {f : ForceHooks z K dim SS LS (ForceState K dim)}
    (h : ForceOff p f) : LibForce f := by
  cases h <;> constructor

theorem ForceOff.preP2g {p : Fin z.P} {f : ForceHooks z K dim SS LS (ForceState K dim)}
    (h : ForceOff p f) {x x' : Ctx z K dim SS LS (ForceState K dim)} {dt time : K}
    (hx : f.preP2g x dt time = .ok x') : x'.world.bodies p = x.world.bodies p := by
  cases h with
  | gravity onGrid ps gs fIdx =>
    have := (libForce_preP2g (R := fun _ s s' => s' = s → True) (by simp) (by simp) (by simp)
      (LibForce.gravity onGrid ps gs fIdx) x x' dt time hx)
    simp only [gravityForce] at hx
    split_ifs at hx
    · have := Except.ok.inj hx; subst this; rfl
    · split at hx
      · exact absurd hx (by simp)
      · have := Except.ok.inj hx; subst this; rfl
    · obtain ⟨a, -, hx⟩ := andThen_ok.mp hx
      exact absurd hx (by simp)
  | damping onGrid ps gs fIdx hd =>
    simp only [dampingForce] at hx
    split_ifs at hx with ho
    · have := Except.ok.inj hx; subst this; rfl
    · obtain ⟨a, -, hx⟩ := andThen_ok.mp hx
      have hps : p ∉ ps := hd.resolve_left ho
      refine foldE_rel (R := fun x x' : Ctx z K dim SS LS (ForceState K dim) =>
        x'.world.bodies p = x.world.bodies p) (fun _ => rfl) (fun _ _ _ h1 h2 => h2.trans h1) ps
        x x' ?_ hx
      intro q hq y y' hy
      split at hy
      · exact absurd hy (by simp)
      · have := Except.ok.inj hy; subst this
        exact setBody_ne y (p := q) (q := p) (fun e => hps (by rw [e]; exact hq)) _
  | sdfCollider fn sdf gs gap base => have := Except.ok.inj hx; subst this; rfl
  | gridContact => have := Except.ok.inj hx; subst this; rfl

/-- **C19** (exact form). A body that no coupling names and no point damping acts on is exactly unchanged,
scratch arrays included. -/
theorem uncoupled_body_exact (hcall : IsSolverCall fn sv call) (p : Fin z.P)
    (hf : ∀ f ∈ sv.forces, ForceOff p f) (hp : ∀ c ∈ sv.couplings, c.p ≠ p) (k : ℕ)
    (st st' : SimState z K dim SS LS (ForceState K dim)) (h : runSteps call k st = .ok st') :
    st'.world.bodies p = st.world.bodies p := by
  refine runSteps_rel (R := fun st st' : SimState z K dim SS LS (ForceState K dim) =>
      st'.world.bodies p = st.world.bodies p) (fun _ => rfl) (fun _ _ _ h1 h2 => h2.trans h1) ?_ k st st' h
  clear h st st'
  intro st st' h
  have hi : Inactive sv p := fun c hc hq => absurd hq (hp c hc)
  obtain ⟨w, x0, x2, x3, x4, g2p, hw, h0, h02, -, hg, h3, h4, h5, -, -⟩ :=
    call_stages (fun f hf' => (hf f hf').lib) hcall h
  have e0 : x0.world.bodies p = (resetMaterialPoints sv w).bodies p :=
    foldE_rel (R := fun x x' : Ctx z K dim SS LS (ForceState K dim) =>
      x'.world.bodies p = x.world.bodies p) (fun _ => rfl) (fun _ _ _ h1 h2 => h2.trans h1) sv.forces _ x0
      (fun f hf' y y' hy => (hf f hf').preP2g hy) h0
  rw [h5, law_frame hi h4, g2p_frame hi hg h3, h02, e0]
  simp only [resetMaterialPoints]
  rw [if_neg, hw]
  simp only [List.any_eq_true, decide_eq_true_eq, not_exists, not_and]
  exact fun c hc => hp c hc

/-! ### C63 -/

/-- **C63** (masks). Whatever the obstacles, sharpness and sigmoid, the connectivity used by the
transfers is the plain one and every CPIC mask is 1. -/
theorem cpic_mask_one (w : World z K dim SS) (dt : K) :
    (buildCache fn sv w dt).interactions = computeConnectivity sv w ∧
    ∀ p g v, (buildCache fn sv w dt).interactions p g = some v → ∀ i, v.2.cpicMask i = 1 := by
  refine ⟨buildCache_interactions fn sv w dt, fun p g v h i => ?_⟩
  rw [buildCache_interactions] at h
  rw [computeConnectivity_ok sv w p g v h]
  rfl

/-- **C63** (gather). The ghost velocities that the obstacles provide have no influence. -/
theorem ghost_irrelevant {n : ℕ} (ker : Kernel) (dom : GridDomain K dim) (pos : Fin n → Fin dim → K)
    (alpha dt : K) (ghost : Option (Fin n → Fin dim → K)) (gr : GridArrays K dim) (s : MPState K dim n) :
    g2pBody alpha dt (compute ker dom pos) ghost gr s = g2pBody alpha dt (compute ker dom pos) none gr s := by
  have : ∀ v : Fin (n * windowSize ker dim) → Fin dim → K,
      ghostBlend (compute ker dom pos) ghost v = v := by
    intro v
    cases ghost with
    | none => rfl
    | some gh => funext i a; simp [ghostBlend, compute]
  unfold g2pBody
  simp only [this]
  rfl

theorem buildCache_congr (sg : K → K) (sh : K) (w : World z K dim SS) (dt : K) :
    buildCache { fn with sigmoid := sg } { sv with sharpness := sh } w dt = buildCache fn sv w dt := by
  have h1 := buildCache_interactions { fn with sigmoid := sg } { sv with sharpness := sh } w dt
  have h2 := buildCache_interactions fn sv w dt
  have h3 : computeConnectivity { sv with sharpness := sh } w = computeConnectivity sv w := rfl
  have e : ∀ (a b : Cache z K dim), a.interactions = b.interactions → a.grids = b.grids →
      a.mpGeoms = b.mpGeoms → a.nodeGeoms = b.nodeGeoms → a = b := by
    rintro ⟨⟩ ⟨⟩ h1 h2 h3 h4
    simp only at h1 h2 h3 h4
    subst h1 h2 h3 h4; rfl
  exact e _ _ (by rw [h1, h2, h3]) rfl rfl rfl

/-- **C63** (calls). The result of a call does not depend on the SDF sharpness or the sigmoid. -/
theorem sharpness_irrelevant (sg : K → K) (sh : K) (st : SimState z K dim SS LS (ForceState K dim)) :
    uslCall { fn with sigmoid := sg } { sv with sharpness := sh } st = uslCall fn sv st ∧
    ∀ pr, aflipCall { fn with sigmoid := sg } pr { sv with sharpness := sh } st = aflipCall fn pr sv st := by
  constructor
  · unfold uslCall callWith
    simp only [buildCache_congr]
    rfl
  · intro pr
    unfold aflipCall callWith
    simp only [buildCache_congr]
    rfl

/-! ### C55 -/

/-- In 2D and 3D the affine matrices returned by the ASFLIP gather are the new `L_stack`. -/
theorem aflip_Bp_eq_L (hd : dim = 2 ∨ dim = 3) {n : ℕ} (ker : Kernel) (dom : GridDomain K dim)
    (pos : Fin n → Fin dim → K) (sqrt : K → K) (pr : AflipParams K) (cell dt : K) (gr : GridArrays K dim)
    (s : MPState K dim n) (p : Fin n) :
    (aflipG2pMls sqrt pr cell dt (compute ker dom pos) gr s).2 p =
      (aflipG2pMls sqrt pr cell dt (compute ker dom pos) gr s).1.L p := by
  rcases hd with rfl | rfl
  · have h := (planar_pBp ker dom pos pr.cutoff gr p)
    simp only [aflipG2pMls, if_true]
    ext i j
    unfold set22
    split_ifs with hij
    · obtain ⟨rfl, rfl⟩ := hij
      refine pointSum_zero _ _ (fun i => ?_) p
      rw [shapeGrad_two]; ring
    · rfl
  · simp [aflipG2pMls]

/-- The affine matrices stored for body `p` after a call: those at index `p` of the solver states. -/
theorem aflip_stored (hd : dim = 2 ∨ dim = 3) (hL : ∀ c, (sv.laws c).OnlyStress)
    (hf : ∀ f ∈ sv.forces, LibForce f) (pr : AflipParams K)
    (st st' : SimState z K dim SS LS (ForceState K dim)) (h : aflipCall fn pr sv st = .ok st')
    (c : Coupling z) (hc : c ∈ sv.couplings) (hs : c.skip = false) :
    ∃ (hS : c.p.val < z.S) (s' : MPState K dim (z.np c.p)), st'.world.bodies c.p = .deformable s' ∧
      ∀ q : Fin (z.np c.p), st'.mech.solvers ⟨c.p.val, hS⟩ q.val = s'.L q := by
  obtain ⟨wm, x1, x2, x3, x4, h1, h2, h3, h4, h5, rfl⟩ := callWith_ok h
  have hk := kinematicUpdate_lib hf _ _ _ _ _ h1
  obtain ⟨x0, h20, h21⟩ := andThen_ok.mp h2
  have r0 := preP2g_lib (R := fun _ _ _ => True) (fun _ _ _ => trivial) (fun _ _ => trivial)
    (fun _ _ _ _ _ _ => trivial) hf _ _ _ _ h20
  have r1 := same_of_fold sv.couplings x0 x1 (fun c _ x x' hx => aflipP2gCoupling_world _ x x' c hx) h21
  have r2 := integrateGrid_lib hf _ _ _ _ h3
  have hok : CacheOk x2.cache := by
    intro p g v hv
    rw [r2.2.2.1, r1.2.2.1, r0.2.2] at hv
    exact buildCache_ok fn sv _ _ p g v hv
  let I : Ctx z K dim SS LS (ForceState K dim) → Prop := fun y =>
    ∃ (hS : c.p.val < z.S) (s' : MPState K dim (z.np c.p)), y.world.bodies c.p = .deformable s' ∧
      ∀ q : Fin (z.np c.p), y.mech.solvers ⟨c.p.val, hS⟩ q.val = s'.L q
  have est : ∀ b : Coupling z, b.skip = false → ∀ y y' : Ctx z K dim SS LS (ForceState K dim),
      y.cache = x2.cache → aflipG2pCoupling fn pr sv.domains st.dt y b = .ok y' → y'.cache = x2.cache ∧
      ((c.p = b.p → I y') ∧ (c.p ≠ b.p → I y → I y')) := by
    intro b hb y y' hy hyy
    obtain ⟨ker, ic, s, r, hS, hic, hbb, hr, rfl⟩ := aflipG2pCoupling_ok hb hyy
    rw [hy] at hic
    obtain ⟨dom, pos, hcp⟩ := hok _ _ _ hic
    simp only at hcp
    rw [hcp] at hr
    refine ⟨hy, ?_, ?_⟩
    · intro hq
      obtain ⟨cker, cp, cg, cc, cs, cskip⟩ := c
      simp only at hq
      subst hq
      refine ⟨hS, r.1, setBody_self y _ _, fun q => ?_⟩
      simp only [Function.update_self]
      rw [dif_pos q.isLt, aflipG2pBody_ok hr]
      exact aflip_Bp_eq_L hd _ _ _ _ _ _ _ _ _ _
    · rintro hq ⟨hS', s', hs', hI⟩
      refine ⟨hS', s', (setBody_ne y hq (.deformable r.1)).trans hs', fun q => ?_⟩
      rw [← hI q]
      have : (⟨c.p.val, hS'⟩ : Fin z.S) ≠ ⟨b.p.val, hS⟩ := by
        intro e
        exact hq (Fin.ext (by simpa using e))
      exact congrFun (Function.update_of_ne this _ _) _
  have e3 : x3.cache = x2.cache ∧ I x3 := by
    refine foldE_establish' (P := fun y => y.cache = x2.cache) (I := I) sv.couplings x2 x3 c hc rfl
      ?_ ?_ ?_ h4
    · intro b _ y y' hy hyy
      cases hb : b.skip with
      | true => rw [aflipG2pCoupling_skip hb hyy]; exact hy
      | false => exact (est b hb y y' hy hyy).1
    · intro y y' hy hyy
      exact (est c hs y y' hy hyy).2.1 rfl
    · intro b _ y y' hy hI hyy
      cases hb : b.skip with
      | true => rw [aflipG2pCoupling_skip hb hyy]; exact hI
      | false =>
        by_cases hq : c.p = b.p
        · exact (est b hb y y' hy hyy).2.1 hq
        · exact (est b hb y y' hy hyy).2.2 hq hI
  refine foldE_inv (I := I) sv.couplings x3 x4 e3.2 ?_ h5
  rintro b _ y y' ⟨hS, s', hs', hI⟩ hyy
  cases hb : b.skip with
  | true => rw [lawCoupling_skip hb hyy]; exact ⟨hS, s', hs', hI⟩
  | false =>
    obtain ⟨s, r, hbb, hr, rfl⟩ := lawCoupling_ok hb hyy
    by_cases hq : c.p = b.p
    · obtain ⟨cker, cp, cg, cc, cs, cskip⟩ := c
      simp only at hq
      subst hq
      simp only at hs' hI
      rw [hbb] at hs'
      cases hs'
      refine ⟨hS, _, setBody_self y _ _, fun q => ?_⟩
      rw [hI q]
      unfold removeShear
      split_ifs <;> rw [hL b.c s _ _ r hr]
    · exact ⟨hS, s', (setBody_ne y hq (.deformable (removeShear fn (sv.laws b.c).requiresFReset r.1))).trans hs',
        hI⟩

/-- **C55** (partial): if a coupling's solver-state index is its body index, the affine matrices that the
next P2G of that body reads (`mech.solvers c.s`) are those its last G2P computed, i.e. its velocity gradient.
Missing: couplings whose two indices differ, for which it is false (`aflip_affine_swapped`,
`aflip_index_error`); `SimBuilder.couple` numbers solver states by coupling, not by body. -/
theorem aflip_affine_roundtrip_partial (hd : dim = 2 ∨ dim = 3) (hL : ∀ c, (sv.laws c).OnlyStress)
    (hf : ∀ f ∈ sv.forces, LibForce f) (pr : AflipParams K)
    (st st' : SimState z K dim SS LS (ForceState K dim)) (h : aflipCall fn pr sv st = .ok st')
    (c : Coupling z) (hc : c ∈ sv.couplings) (hs : c.skip = false) (hsp : c.s.val = c.p.val) :
    ∃ s' : MPState K dim (z.np c.p), st'.world.bodies c.p = .deformable s' ∧
      ∀ q : Fin (z.np c.p), st'.mech.solvers c.s q.val = s'.L q := by
  obtain ⟨hS, s', hb, hI⟩ := aflip_stored hd hL hf pr st st' h c hc hs
  have : c.s = ⟨c.p.val, hS⟩ := Fin.ext hsp
  exact ⟨s', hb, by rw [this]; exact hI⟩

/-- **C55**: a coupled body whose number is not below the number of solver states makes every call fail. -/
theorem aflip_index_error (pr : AflipParams K)
    (st : SimState z K dim SS LS (ForceState K dim)) (c : Coupling z) (hc : c ∈ sv.couplings)
    (hs : c.skip = false) (hbad : z.S ≤ c.p.val) : ∀ st', aflipCall fn pr sv st ≠ .ok st' := by
  intro st' h
  obtain ⟨wm, x1, x2, x3, x4, h1, h2, h3, h4, h5, rfl⟩ := callWith_ok h
  refine foldE_establish (I := fun _ => False) sv.couplings x2 x3 c hc ?_ (fun _ _ _ _ h _ => h) h4
  intro y y' hy
  obtain ⟨ker, ic, s, r, hS, -⟩ := aflipG2pCoupling_ok hs hy
  omega

/-! ### C66 -/

theorem volScalarClosed : BodyClosed fn sv.laws
    (fun n s s' => n ≠ 1 → s.volScalar = false → s'.volScalar = false) where
  refl _ _ _ h := h
  trans _ _ _ _ h1 h2 hn h := h2 hn (h1 hn h)
  damp _ _ _ _ h := h
  reset _ _ _ h := h
  g2p _ _ _ _ _ _ _ _ _ hn _ := by simp [g2pBody, hn]
  aflip _ _ _ _ _ _ _ _ _ r h hn _ := by rw [aflipG2pBody_ok h]; simp [aflipG2pMls, hn]
  stress _ _ _ _ h := h
  shear _ s c _ h := by unfold removeShear; split_ifs <;> exact h

/-- **C66** (partial): a body with any number of points except one keeps an array of volumes. Missing:
bodies of one point, for which it is false (`single_point_second_call_fails`). -/
theorem volume_array_shape_partial (hL : ∀ c, (sv.laws c).OnlyStress)
    (hf : ∀ f ∈ sv.forces, LibForce f) (hcall : IsSolverCall fn sv call) (k : ℕ)
    (st st' : SimState z K dim SS LS (ForceState K dim)) (h : runSteps call k st = .ok st')
    (p : Fin z.P) (hn : z.np p ≠ 1) (s s' : MPState K dim (z.np p))
    (hs : st.world.bodies p = .deformable s) (hs' : st'.world.bodies p = .deformable s')
    (hv : s.volScalar = false) : s'.volScalar = false := by
  have hr := run_rel (volScalarClosed) hL hf hcall k st st' h p
  rw [hs, hs'] at hr
  exact hr hn hv

/-- **C66** refuted: `volume_stack` is squeezed to a scalar by the first call if the body has one point,
and from then on every call fails. -/
theorem single_point_second_call_fails (hL : ∀ c, (sv.laws c).OnlyStress)
    (hf : ∀ f ∈ sv.forces, LibForce f) (hcall : IsSolverCall fn sv call)
    (st st' : SimState z K dim SS LS (ForceState K dim)) (h : call st = .ok st')
    (c : Coupling z) (hc : c ∈ sv.couplings) (hs : c.skip = false) (h1 : z.np c.p = 1) :
    ∀ st'', call st' ≠ .ok st'' := by
  obtain ⟨s, hb, hI⟩ := call_establish (I := fun n s => n = 1 → s.volScalar = true)
    (fun n _ _ _ _ _ _ _ _ hn => by simp [g2pBody, hn])
    (fun n _ _ _ _ _ _ _ _ r h hn => by rw [aflipG2pBody_ok h]; simp [aflipG2pMls, hn])
    (fun _ _ _ h => h) (fun _ s c h => by unfold removeShear; split_ifs <;> exact h) hL hf hcall h c hc hs
  have hv := hI h1
  intro st'' h2
  have key : ∀ (p2gC : Ctx z K dim SS LS (ForceState K dim) → Coupling z →
      Except PyErr (Ctx z K dim SS LS (ForceState K dim))) (g2p),
      (∀ y y', p2gC y c = .ok y' → ∀ s', y.world.bodies c.p = .deformable s' → s'.volScalar = false) →
      (∀ x x' c, p2gC x c = .ok x' → x'.world = x.world) →
      callWith fn sv (fun x dt time => andThen (runHook ForceHooks.preP2g sv.forces x dt time)
        fun x => foldE p2gC x sv.couplings) g2p st' = .ok st'' → False := by
    intro p2gC g2p hC hW hcw
    obtain ⟨wm, x1, x2, x3, x4, k1, k2, -⟩ := callWith_ok hcw
    have hk := kinematicUpdate_lib hf _ _ _ _ _ k1
    obtain ⟨x0, k20, k21⟩ := andThen_ok.mp k2
    have rr := reset_rel (sv := sv) (R := fun _ s s' => s.volScalar = true → s'.volScalar = true)
      (fun _ _ h => h) (fun _ _ h => h) wm.1 c.p
    have r0 := (preP2g_lib (R := fun _ s s' => s.volScalar = true → s'.volScalar = true)
      (fun _ _ _ h => h) (fun _ _ h => h) (fun _ _ _ _ h1 h2 h => h2 (h1 h)) hf _ _ _ _ k20).1.1 c.p
    have rt := Body.Rel.trans (R := fun _ s s' => s.volScalar = true → s'.volScalar = true)
      (fun _ _ _ _ h1 h2 h => h2 (h1 h)) rr r0
    rw [hk.1, hb] at rt
    cases hb0 : x0.world.bodies c.p with
    | rigid r => rw [hb0] at rt; exact rt
    | deformable s0 =>
      rw [hb0] at rt
      have hv0 := rt hv
      have := foldE_establish' (P := fun y : Ctx z K dim SS LS (ForceState K dim) => y.world = x0.world)
        (I := fun _ => False) sv.couplings x0 x1 c hc rfl
        (fun b _ y y' hy hyy => (hW y y' b hyy).trans hy)
        (fun y y' hy hyy => by
          have := hC y y' hyy s0 (by rw [hy]; exact hb0)
          rw [hv0] at this; exact absurd this (by simp))
        (fun _ _ _ _ _ h _ => h) k21
      exact this.2
  rcases hcall with rfl | ⟨pr, rfl⟩
  · refine key p2gCoupling _ ?_ (fun x x' c hx => (p2gCoupling_world x x' c hx).1) h2
    intro y y' hy s' hs'
    unfold p2gCoupling at hy
    rw [if_neg (by simp [hs])] at hy
    split at hy
    · exact absurd hy (by simp)
    · rw [hs'] at hy
      simp only at hy
      split_ifs at hy with hvs
      simpa using hvs
  · refine key (aflipP2gCoupling sv.domains) _ ?_ (fun x x' c hx => (aflipP2gCoupling_world _ x x' c hx).1) h2
    intro y y' hy s' hs'
    unfold aflipP2gCoupling at hy
    rw [if_neg (by simp [hs])] at hy
    split at hy
    · exact absurd hy (by simp)
    · rw [hs'] at hy
      simp only at hy
      split_ifs at hy with hvs
      simpa using hvs

/-- **C66** refuted with obstacles: as soon as the scene has an obstacle, not even one USL call with a body of one point
succeeds. -/
theorem single_point_obstacle_fails (hD : z.D ≠ 0) (st st' : SimState z K dim SS LS (ForceState K dim)) (c : Coupling z)
    (hc : c ∈ sv.couplings) (hs : c.skip = false) (h1 : z.np c.p = 1) : uslCall fn sv st ≠ .ok st' := by
  intro h
  obtain ⟨-, -, x2, x3, -, -, -, -, h4, -⟩ := callWith_ok h
  refine (foldE_establish' (P := fun _ => True) (I := fun _ => False) sv.couplings x2 x3 c hc trivial
    (fun _ _ _ _ _ _ => trivial) (fun y y' _ hy => ?_) (fun _ _ _ _ _ h _ => h) h4).2
  unfold g2pCoupling at hy
  rw [if_neg (by simp [hs])] at hy
  split at hy
  · exact absurd hy (by simp)
  · split at hy
    · exact absurd hy (by simp)
    · rw [if_pos ⟨hD, h1⟩] at hy
      exact absurd hy (by simp)

end

/-! ### Concrete scenes -/

set_option maxRecDepth 100000

/-- Two bodies on one grid, coupled in the order `p = 1`, `p = 0`: solver states are numbered by coupling. -/
abbrev exSz2 : Sz := { P := 2, G := 1, C := 1, S := 2, D := 0, np := fun _ => 2 }

def exPair (a b : Fin 2) : List (Coupling exSz2) :=
  [{ ker := .linear, p := a, g := (0 : Fin 1), c := (0 : Fin 1), s := (0 : Fin 2), skip := false },
   { ker := .linear, p := b, g := (0 : Fin 1), c := (0 : Fin 1), s := (1 : Fin 2), skip := false }]

def exSolver2 (cs : List (Coupling exSz2)) : Solver exSz2 ℚ 2 Unit (LawState ℚ) (ForceState ℚ 2) :=
  { alpha := 99 / 100
    domains := fun _ => GridDomain.create (fun _ => 0) (fun _ => 1) (1 / 2) 2
    couplings := cs
    laws := fun _ => elasticLaw 1000 (1 / 4) false
    forces := [gravityForce true [] [(0 : Fin 1)] 0]
    sdfs := Fin.elim0
    sharpness := 10 }

/-- The second body sits elsewhere in the box. -/
def exBody2 : MPState ℚ 2 2 := { exBody with position := ![![3 / 4, 1 / 5], ![1 / 8, 2 / 5]] }

def exState2 : SimState exSz2 ℚ 2 Unit (LawState ℚ) (ForceState ℚ 2) :=
  { world := { bodies := fun p => if p = (0 : Fin 2) then .deformable exBody else .deformable exBody2
               sdfs := Fin.elim0 }
    mech := { laws := fun _ => .elastic fun _ => 0, solvers := fun _ _ => 0
              forces := [.gravity ![0, -10]] }
    time := 0
    step := 0
    dt := 1 / 100 }

def exAflip2 : AflipParams ℚ :=
  { alpha := 99 / 100, useDynamicAlpha := true, betaMin := 0, betaMax := 1 / 2, useMls := true
    cutoff := 1 / 10 ^ 7, cfl := 1 / 2 }

/-- Entry `(0,0)` of the affine matrix that the next P2G of the first coupled body reads, minus the one
its G2P computed, at point 0. -/
def affineGap (cs : List (Coupling exSz2)) (c : Coupling exSz2) : Option ℚ :=
  match aflipCall ratFns exAflip2 (exSolver2 cs) exState2 with
  | .error _ => none
  | .ok st =>
    match st.world.bodies c.p with
    | .deformable s => some (st.mech.solvers c.s 0 0 0 - s.L (0 : Fin 2) 0 0)
    | .rigid _ => none

/-- **C55** refuted: with two bodies coupled in the reverse order of registration the next P2G of a body
reads the affine matrices of the other one. (No function of `ratFns` has any influence on these entries.) -/
theorem aflip_affine_swapped : ∃ d : ℚ, d ≠ 0 ∧ affineGap (exPair 1 0)
    { ker := .linear, p := (1 : Fin 2), g := (0 : Fin 1), c := (0 : Fin 1), s := (0 : Fin 2), skip := false } =
    some d := by
  have h : (affineGap (exPair 1 0) { ker := .linear, p := (1 : Fin 2), g := (0 : Fin 1), c := (0 : Fin 1), s := (0 : Fin 2), skip := false }).any (fun d => d ≠ 0) = true := by
    decide +kernel
  cases hg : affineGap (exPair 1 0) { ker := .linear, p := (1 : Fin 2), g := (0 : Fin 1), c := (0 : Fin 1), s := (0 : Fin 2), skip := false } with
  | none => rw [hg] at h; simp at h
  | some d => rw [hg] at h; exact ⟨d, by simpa using h, rfl⟩

/-- Registered and coupled in the same order, the hypotheses of the partial theorem are met. -/
example : ∃ st', aflipCall ratFns exAflip2 (exSolver2 (exPair 0 1)) exState2 = .ok st' ∧
    ∀ c ∈ (exSolver2 (exPair 0 1)).couplings, ∃ s' : MPState ℚ 2 2,
      st'.world.bodies c.p = .deformable s' ∧ ∀ q : Fin 2, st'.mech.solvers c.s q.val = s'.L q := by
  obtain ⟨st', h⟩ := isOk_ok (x := aflipCall ratFns exAflip2 (exSolver2 (exPair 0 1)) exState2)
    (by decide +kernel)
  refine ⟨st', h, fun c hc => ?_⟩
  refine aflip_affine_roundtrip_partial (.inl rfl) (fun _ => (LibLaw.elastic _ _ _).onlyStress) ?_ exAflip2
    exState2 st' h c hc ?_ ?_
  · intro f hf
    have : f = gravityForce true [] [(0 : Fin 1)] 0 := by simpa [exSolver2] using hf
    subst this
    exact LibForce.gravity _ _ _ _
  · simp only [exSolver2, exPair, List.mem_cons, List.not_mem_nil, or_false] at hc
    rcases hc with rfl | rfl <;> rfl
  · simp only [exSolver2, exPair, List.mem_cons, List.not_mem_nil, or_false] at hc
    rcases hc with rfl | rfl <;> rfl

/-- A scene with one coupling on the second body only: the first body meets the hypotheses of C19. -/
example : ∃ st', uslCall ratFns (exSolver2 ((exPair 1 0).take 1)) exState2 = .ok st' ∧
    st'.world.bodies (0 : Fin 2) = .deformable exBody := by
  obtain ⟨st', h⟩ := isOk_ok (x := runSteps (uslCall ratFns (exSolver2 ((exPair 1 0).take 1))) 1 exState2)
    (by decide +kernel)
  obtain ⟨st1, h1, h2⟩ := runSteps_succ_ok.mp h
  have h1' : exState2 = st1 := by simpa [runSteps] using h1
  subst h1'
  refine ⟨st', h2, ?_⟩
  have := uncoupled_body_exact (fn := ratFns) (.inl rfl) (0 : Fin 2) (fun f hf => ?_) (fun c hc => ?_) 1
    exState2 st' h
  · rw [this]; rfl
  · have : f = gravityForce true [] [(0 : Fin 1)] 0 := by simpa [exSolver2] using hf
    subst this
    exact ForceOff.gravity _ _ _ _
  · have : c.p = (1 : Fin 2) := by
      simp only [exSolver2, exPair, List.take, List.mem_cons, List.not_mem_nil, or_false] at hc
      rw [hc]
    rw [this]; decide

/-- One point, one step. -/
abbrev exSz1 : Sz := { P := 1, G := 1, C := 1, S := 1, D := 0, np := fun _ => 1 }

def exC1 : Coupling exSz1 :=
  { ker := .linear, p := (0 : Fin 1), g := (0 : Fin 1), c := (0 : Fin 1), s := (0 : Fin 1), skip := false }

def exSolver1 : Solver exSz1 ℚ 2 Unit (LawState ℚ) (ForceState ℚ 2) :=
  { alpha := 99 / 100
    domains := fun _ => GridDomain.create (fun _ => 0) (fun _ => 1) (1 / 2) 2
    couplings := [exC1]
    laws := fun _ => elasticLaw 1000 (1 / 4) false
    forces := []
    sdfs := Fin.elim0
    sharpness := 10 }

def exState1 : SimState exSz1 ℚ 2 Unit (LawState ℚ) (ForceState ℚ 2) :=
  { world := { bodies := fun _ => .deformable (MPState.create
                { position := ![![1 / 3, 9 / 10]], velocity := some ![![1, 2]], mass := some ![1]
                  volume := some ![1 / 4] })
               sdfs := Fin.elim0 }
    mech := { laws := fun _ => .elastic fun _ => 0, solvers := fun _ _ => 0, forces := [] }
    time := 0
    step := 0
    dt := 1 / 100 }

/-- The first call on a one-point body succeeds, the second fails. -/
example : (∃ st', uslCall ratFns exSolver1 exState1 = .ok st') ∧
    ∀ st'', runSteps (uslCall ratFns exSolver1) 2 exState1 ≠ .ok st'' := by
  obtain ⟨st', h⟩ := isOk_ok (x := uslCall ratFns exSolver1 exState1) (by decide +kernel)
  refine ⟨⟨st', h⟩, fun st'' h2 => ?_⟩
  obtain ⟨s1, h1, h2⟩ := runSteps_succ_ok.mp h2
  obtain ⟨s0, h0, h1⟩ := runSteps_succ_ok.mp h1
  have h0' : exState1 = s0 := by simpa [runSteps] using h0
  subst h0'
  rw [h] at h1
  cases h1
  exact single_point_second_call_fails (fun _ => (LibLaw.elastic _ _ _).onlyStress)
    (by simp [exSolver1]) (.inl rfl) exState1 st' h exC1 (by simp [exSolver1]) rfl rfl st'' h2

end Hydrax
