import Verif.Lemmas.SceneRel
import Verif.Model.LawTable

/-!
# Frame and establishment lemmas for one call (helper lemmas)
-/

set_option linter.unusedSectionVars false

namespace Hydrax

theorem LibLaw.onlyStress {K : Type*} [Field K] [LinearOrder K] {dim : ℕ} {l : Law K dim (LawState K)}
    (h : LibLaw l) : l.OnlyStress := by
  intro n s ls dt r hr
  cases h with
  | elastic E nu reset =>
    simp only [elasticLaw, Except.ok.injEq] at hr; subst hr; rfl
  | fluid fn pr reset =>
    simp only [fluidLaw] at hr
    split at hr
    · split_ifs at hr; simp only [Except.ok.injEq] at hr; subst hr; rfl
    · simp at hr
  | muI fn pr reset =>
    simp only [muILaw] at hr
    split at hr
    · split_ifs at hr; simp only [Except.ok.injEq] at hr; subst hr; rfl
    · simp at hr
  | dp fn pr reset =>
    simp only [dpLaw] at hr
    split at hr
    · simp only [Except.ok.injEq] at hr; subst hr; rfl
    · simp at hr
  | mcc fn ops pr reset =>
    simp only [mccLaw] at hr
    split at hr
    · simp only [Except.ok.injEq] at hr; subst hr; rfl
    · simp at hr
    · simp at hr

section
variable {z : Sz} {K : Type*} [Field K] [LinearOrder K] [FloorRing K] {dim : ℕ} {SS LS : Type*}
  {fn : MathFns K} {sv : Solver z K dim SS LS (ForceState K dim)}

/-- A call of one of the two solvers. -/
def IsSolverCall (fn : MathFns K) (sv : Solver z K dim SS LS (ForceState K dim))
    (call : SimState z K dim SS LS (ForceState K dim) →
      Except PyErr (SimState z K dim SS LS (ForceState K dim))) : Prop :=
  call = uslCall fn sv ∨ ∃ pr, call = aflipCall fn pr sv

theorem call_rel {R : ∀ n, MPState K dim n → MPState K dim n → Prop}
    (hC : BodyClosed fn sv.laws R) (hL : ∀ c, (sv.laws c).OnlyStress)
    (hf : ∀ f ∈ sv.forces, LibForce f) {call} (hcall : IsSolverCall fn sv call)
    (st st' : SimState z K dim SS LS (ForceState K dim)) (h : call st = .ok st') (p : Fin z.P) :
    Body.Rel R (st.world.bodies p) (st'.world.bodies p) := by
  rcases hcall with rfl | ⟨pr, rfl⟩
  · exact uslCall_rel hC hL hf st st' h p
  · exact aflipCall_rel hC hL hf pr st st' h p

theorem run_rel {R : ∀ n, MPState K dim n → MPState K dim n → Prop}
    (hC : BodyClosed fn sv.laws R) (hL : ∀ c, (sv.laws c).OnlyStress)
    (hf : ∀ f ∈ sv.forces, LibForce f) {call} (hcall : IsSolverCall fn sv call) (k : ℕ)
    (st st' : SimState z K dim SS LS (ForceState K dim)) (h : runSteps call k st = .ok st')
    (p : Fin z.P) :
    Body.Rel R (st.world.bodies p) (st'.world.bodies p) :=
  runSteps_rel (R := fun st st' : SimState z K dim SS LS (ForceState K dim) =>
      ∀ p, Body.Rel R (st.world.bodies p) (st'.world.bodies p))
    (fun _ _ => Body.Rel.refl hC.refl _) (fun _ _ _ h1 h2 p => (h1 p).trans hC.trans (h2 p))
    (fun st st' h p => call_rel hC hL hf hcall st st' h p) k st st' h p

/-- A predicate on deformable bodies. -/
def Body.All (I : ∀ n, MPState K dim n → Prop) {n : ℕ} : Body K dim n → Prop
  | .deformable s => I n s
  | .rigid _ => True

theorem setBody_self (x : Ctx z K dim SS LS (ForceState K dim)) (p : Fin z.P)
    (b : Body K dim (z.np p)) : (x.setBody p b).world.bodies p = b := by
  rw [setBody_bodies, Function.update_self]

theorem setBody_ne (x : Ctx z K dim SS LS (ForceState K dim)) {p q : Fin z.P} (h : q ≠ p)
    (b : Body K dim (z.np p)) : (x.setBody p b).world.bodies q = x.world.bodies q := by
  rw [setBody_bodies, Function.update_of_ne h]

/-- What an active coupling's G2P pass does. -/
theorem g2pCoupling_ok {alpha dt : K} {x x' : Ctx z K dim SS LS (ForceState K dim)} {c : Coupling z}
    (hs : c.skip = false) (h : g2pCoupling alpha dt x c = .ok x') :
    ∃ ker ic s, x.cache.interactions c.p c.g = some ⟨ker, ic⟩ ∧ x.world.bodies c.p = .deformable s ∧
      x' = x.setBody c.p (.deformable
        (g2pBody alpha dt ic (ghostVelocity x c.p s) (x.cache.grids c.g) s)) := by
  unfold g2pCoupling at h
  rw [if_neg (by simp [hs])] at h
  split at h
  · exact absurd h (by simp)
  · rename_i ker ic hic
    split at h
    · exact absurd h (by simp)
    · rename_i s hb
      split_ifs at h
      exact ⟨ker, ic, s, hic, hb, (Except.ok.inj h).symm⟩

theorem g2pCoupling_skip {alpha dt : K} {x x' : Ctx z K dim SS LS (ForceState K dim)} {c : Coupling z}
    (hs : c.skip = true) (h : g2pCoupling alpha dt x c = .ok x') : x' = x := by
  unfold g2pCoupling at h
  rw [if_pos hs] at h
  exact (Except.ok.inj h).symm

theorem aflipG2pCoupling_ok {pr : AflipParams K} {dom : Fin z.G → GridDomain K dim} {dt : K}
    {x x' : Ctx z K dim SS LS (ForceState K dim)} {c : Coupling z}
    (hs : c.skip = false) (h : aflipG2pCoupling fn pr dom dt x c = .ok x') :
    ∃ ker ic s r, ∃ hS : c.p.val < z.S, x.cache.interactions c.p c.g = some ⟨ker, ic⟩ ∧
      x.world.bodies c.p = .deformable s ∧
      aflipG2pBody fn.sqrt pr (dom c.g).cellSize dt ic (x.cache.grids c.g) s = .ok r ∧
      x' = { x.setBody c.p (.deformable r.1) with mech := { x.mech with
        solvers := Function.update x.mech.solvers ⟨c.p.val, hS⟩
          (fun q => if hq : q < z.np c.p then r.2 ⟨q, hq⟩ else 0) } } := by
  unfold aflipG2pCoupling at h
  rw [if_neg (by simp [hs])] at h
  split at h
  · exact absurd h (by simp)
  · rename_i ker ic hic
    split at h
    · exact absurd h (by simp)
    · rename_i s hb
      by_cases hS : c.p.val < z.S
      · rw [dif_pos hS] at h
        obtain ⟨r, hr, h⟩ := andThen_ok.mp h
        exact ⟨ker, ic, s, r, hS, hic, hb, hr, (Except.ok.inj h).symm⟩
      · rw [dif_neg hS] at h
        exact absurd h (by simp)

theorem aflipG2pCoupling_skip {pr : AflipParams K} {dom : Fin z.G → GridDomain K dim} {dt : K}
    {x x' : Ctx z K dim SS LS (ForceState K dim)} {c : Coupling z}
    (hs : c.skip = true) (h : aflipG2pCoupling fn pr dom dt x c = .ok x') : x' = x := by
  unfold aflipG2pCoupling at h
  rw [if_pos hs] at h
  exact (Except.ok.inj h).symm

theorem lawCoupling_ok {laws : Fin z.C → Law K dim LS} {dt : K}
    {x x' : Ctx z K dim SS LS (ForceState K dim)} {c : Coupling z}
    (hs : c.skip = false) (h : lawCoupling fn laws dt x c = .ok x') :
    ∃ s r, x.world.bodies c.p = .deformable s ∧ (laws c.c).update s (x.mech.laws c.c) dt = .ok r ∧
      x' = { x.setBody c.p (.deformable (removeShear fn (laws c.c).requiresFReset r.1)) with
              mech := { x.mech with laws := Function.update x.mech.laws c.c r.2 } } := by
  unfold lawCoupling at h
  rw [if_neg (by simp [hs])] at h
  split at h
  · exact absurd h (by simp)
  · rename_i s hb
    obtain ⟨r, hr, h⟩ := andThen_ok.mp h
    exact ⟨s, r, hb, hr, (Except.ok.inj h).symm⟩

theorem lawCoupling_skip {laws : Fin z.C → Law K dim LS} {dt : K}
    {x x' : Ctx z K dim SS LS (ForceState K dim)} {c : Coupling z}
    (hs : c.skip = true) (h : lawCoupling fn laws dt x c = .ok x') : x' = x := by
  unfold lawCoupling at h
  rw [if_pos hs] at h
  exact (Except.ok.inj h).symm

/-- Stages of a call of either solver, without the cache details. -/
def CallStages (fn : MathFns K) (sv : Solver z K dim SS LS (ForceState K dim))
    (st st' : SimState z K dim SS LS (ForceState K dim)) : Prop :=
  ∃ (w : World z K dim SS) (x0 x2 x3 x4 : Ctx z K dim SS LS (ForceState K dim))
    (g2p : Ctx z K dim SS LS (ForceState K dim) → Coupling z →
      Except PyErr (Ctx z K dim SS LS (ForceState K dim))),
    w.bodies = st.world.bodies ∧
      runHook ForceHooks.preP2g sv.forces
        { world := resetMaterialPoints sv w, mech := st.mech,
          cache := buildCache fn sv (resetMaterialPoints sv w) st.dt } st.dt st.time = .ok x0 ∧
      x2.world = x0.world ∧
      x2.cache.interactions = (buildCache fn sv (resetMaterialPoints sv w) st.dt).interactions ∧
      (g2p = g2pCoupling sv.alpha st.dt ∨ ∃ pr, g2p = aflipG2pCoupling fn pr sv.domains st.dt) ∧
      foldE g2p x2 sv.couplings = .ok x3 ∧
      foldE (lawCoupling fn sv.laws st.dt) x3 sv.couplings = .ok x4 ∧
      st'.world = x4.world ∧ st'.mech = x4.mech ∧ x2.mech = st.mech

theorem call_stages (hf : ∀ f ∈ sv.forces, LibForce f) {call} (hcall : IsSolverCall fn sv call)
    {st st' : SimState z K dim SS LS (ForceState K dim)} (h : call st = .ok st') :
    CallStages fn sv st st' := by
  have key : ∀ {p2gC : Ctx z K dim SS LS (ForceState K dim) → Coupling z →
      Except PyErr (Ctx z K dim SS LS (ForceState K dim))} {p2g g2p g2pC}
    (_ : p2g = fun x dt time => andThen (runHook ForceHooks.preP2g sv.forces x dt time)
      fun x => foldE p2gC x sv.couplings)
    (_ : ∀ x, g2p x st.dt st.time = foldE g2pC x sv.couplings)
    (_ : g2pC = g2pCoupling sv.alpha st.dt ∨ ∃ pr, g2pC = aflipG2pCoupling fn pr sv.domains st.dt)
    (_ : ∀ x x' c, p2gC x c = .ok x' → x'.world = x.world ∧ x'.mech = x.mech ∧
      x'.cache.interactions = x.cache.interactions ∧ x'.cache.mpGeoms = x.cache.mpGeoms)
    (_ : callWith fn sv p2g g2p st = .ok st'), CallStages fn sv st st' := by
    intro p2gC p2g g2p g2pC hp hg hgc hpc h
    obtain ⟨wm, x1, x2, x3, x4, h1, h2, h3, h4, h5, rfl⟩ := callWith_ok h
    have hk := kinematicUpdate_lib hf _ _ _ _ _ h1
    subst hp
    obtain ⟨x0, h20, h21⟩ := andThen_ok.mp h2
    have r0 := preP2g_lib (R := fun _ _ _ => True) (fun _ _ _ => trivial) (fun _ _ => trivial)
      (fun _ _ _ _ _ _ => trivial) hf _ _ _ _ h20
    have r1 := same_of_fold sv.couplings x0 x1 (fun c _ x x' hx => hpc x x' c hx) h21
    have r2 := integrateGrid_lib hf _ _ _ _ h3
    rw [hk.2.1] at h20
    exact ⟨wm.1, x0, x2, x3, x4, g2pC, hk.1, h20, r2.1.trans r1.1,
      by rw [r2.2.2.1, r1.2.2.1, r0.2.2], hgc, (hg x2).symm.trans h4, h5, rfl, rfl,
      by rw [r2.2.1, r1.2.1, r0.2.1, hk.2.1]⟩
  rcases hcall with rfl | ⟨pr, rfl⟩
  · exact key (p2gC := p2gCoupling) (g2pC := g2pCoupling sv.alpha st.dt) rfl (fun _ => rfl) (.inl rfl)
      (fun x x' c => p2gCoupling_world x x' c) h
  · exact key (p2gC := aflipP2gCoupling sv.domains) (g2pC := aflipG2pCoupling fn pr sv.domains st.dt) rfl
      (fun _ => rfl) (.inr ⟨pr, rfl⟩) (fun x x' c => aflipP2gCoupling_world _ x x' c) h

/-- If a predicate is produced by both grid-to-particle updates and respected by the later stages, it
holds after a call for every body with an active coupling. -/
theorem call_establish {I : ∀ n, MPState K dim n → Prop}
    (hg : ∀ n s ker (dom : GridDomain K dim) (pos : Fin n → Fin dim → K) alpha dt ghost gr,
      I n (g2pBody alpha dt (compute ker dom pos) ghost gr s))
    (ha : ∀ n s ker (dom : GridDomain K dim) (pos : Fin n → Fin dim → K) pr cell dt gr r,
      aflipG2pBody fn.sqrt pr cell dt (compute ker dom pos) gr s = .ok r → I n r.1)
    (hstress : ∀ n s σ, I n s → I n { s with stress := σ })
    (hshear : ∀ n s (c : Fin z.C), I n s → I n (removeShear fn (sv.laws c).requiresFReset s))
    (hL : ∀ c, (sv.laws c).OnlyStress)
    (hf : ∀ f ∈ sv.forces, LibForce f) {call} (hcall : IsSolverCall fn sv call)
    {st st' : SimState z K dim SS LS (ForceState K dim)} (h : call st = .ok st')
    (c : Coupling z) (hc : c ∈ sv.couplings) (hs : c.skip = false) :
    ∃ s, st'.world.bodies c.p = .deformable s ∧ I _ s := by
  obtain ⟨w, x0, x2, x3, x4, g2p, -, -, -, hi, hg2, h3, h4, hw, -, -⟩ := call_stages hf hcall h
  have hok : CacheOk x2.cache := by
    intro p g v hv
    rw [hi] at hv
    exact buildCache_ok fn sv _ _ p g v hv
  rw [hw]
  have e3 : ∃ s, x3.world.bodies c.p = .deformable s ∧ I _ s := by
    rcases hg2 with rfl | ⟨pr, rfl⟩
    · have : x3.cache = x2.cache ∧ ∃ s, x3.world.bodies c.p = .deformable s ∧ I _ s := by
        have hcache : ∀ b ∈ sv.couplings, ∀ y y' : Ctx z K dim SS LS (ForceState K dim), y.cache = x2.cache →
            g2pCoupling sv.alpha st.dt y b = .ok y' → y'.cache = x2.cache := by
          intro b _ y y' hy hb
          cases hsb : b.skip with
          | true => rw [g2pCoupling_skip hsb hb]; exact hy
          | false =>
            obtain ⟨ker, ic, s, -, -, rfl⟩ := g2pCoupling_ok hsb hb
            exact hy
        refine foldE_establish' (P := fun y => y.cache = x2.cache)
          (I := fun y => ∃ s, y.world.bodies c.p = .deformable s ∧ I _ s) sv.couplings x2 x3 c hc rfl
          hcache ?_ ?_ h3
        · intro y y' hy hyy
          obtain ⟨ker, ic, s, hic, hb, rfl⟩ := g2pCoupling_ok hs hyy
          rw [hy] at hic
          obtain ⟨dom, pos, hcp⟩ := hok _ _ _ hic
          simp only at hcp
          refine ⟨_, setBody_self _ _ _, ?_⟩
          rw [hcp]; exact hg _ _ _ _ _ _ _ _ _
        · intro b _ y y' hy hI hyy
          cases hsb : b.skip with
          | true => rw [g2pCoupling_skip hsb hyy]; exact hI
          | false =>
            obtain ⟨ker, ic, s, hic, hb, rfl⟩ := g2pCoupling_ok hsb hyy
            by_cases hq : c.p = b.p
            · rw [hq]
              rw [hy] at hic
              obtain ⟨dom, pos, hcp⟩ := hok _ _ _ hic
              simp only at hcp
              refine ⟨_, setBody_self _ _ _, ?_⟩
              rw [hcp]; exact hg _ _ _ _ _ _ _ _ _
            · rw [setBody_ne _ hq]; exact hI
      exact this.2
    · have : x3.cache = x2.cache ∧ ∃ s, x3.world.bodies c.p = .deformable s ∧ I _ s := by
        have hcache : ∀ b ∈ sv.couplings, ∀ y y' : Ctx z K dim SS LS (ForceState K dim), y.cache = x2.cache →
            aflipG2pCoupling fn pr sv.domains st.dt y b = .ok y' → y'.cache = x2.cache := by
          intro b _ y y' hy hb
          cases hsb : b.skip with
          | true => rw [aflipG2pCoupling_skip hsb hb]; exact hy
          | false =>
            obtain ⟨ker, ic, s, r, hS, -, -, -, rfl⟩ := aflipG2pCoupling_ok hsb hb
            exact hy
        refine foldE_establish' (P := fun y => y.cache = x2.cache)
          (I := fun y => ∃ s, y.world.bodies c.p = .deformable s ∧ I _ s) sv.couplings x2 x3 c hc rfl
          hcache ?_ ?_ h3
        · intro y y' hy hyy
          obtain ⟨ker, ic, s, r, hS, hic, hb, hr, rfl⟩ := aflipG2pCoupling_ok hs hyy
          rw [hy] at hic
          obtain ⟨dom, pos, hcp⟩ := hok _ _ _ hic
          simp only at hcp
          rw [hcp] at hr
          exact ⟨_, setBody_self _ _ _, ha _ _ _ _ _ _ _ _ _ _ hr⟩
        · intro b _ y y' hy hI hyy
          cases hsb : b.skip with
          | true => rw [aflipG2pCoupling_skip hsb hyy]; exact hI
          | false =>
            obtain ⟨ker, ic, s, r, hS, hic, hb, hr, rfl⟩ := aflipG2pCoupling_ok hsb hyy
            by_cases hq : c.p = b.p
            · rw [hq]
              rw [hy] at hic
              obtain ⟨dom, pos, hcp⟩ := hok _ _ _ hic
              simp only at hcp
              rw [hcp] at hr
              exact ⟨_, setBody_self _ _ _, ha _ _ _ _ _ _ _ _ _ _ hr⟩
            · exact (setBody_ne y hq (.deformable r.1)) ▸ hI
      exact this.2
  refine foldE_inv (I := fun y => ∃ s, y.world.bodies c.p = .deformable s ∧ I _ s) sv.couplings x3 x4
    e3 ?_ h4
  intro b _ y y' hI hy
  cases hsb : b.skip with
  | true => rw [lawCoupling_skip hsb hy]; exact hI
  | false =>
    obtain ⟨s, r, hb, hr, rfl⟩ := lawCoupling_ok hsb hy
    by_cases hq : c.p = b.p
    · rw [hq] at hI ⊢
      obtain ⟨s', hs', hI⟩ := hI
      rw [hb] at hs'
      cases hs'
      refine ⟨_, setBody_self _ _ _, ?_⟩
      have h1 := hstress _ s r.1.stress hI
      rw [← hL b.c s _ _ r hr] at h1
      exact hshear _ _ _ h1
    · exact (setBody_ne y hq (.deformable (removeShear fn (sv.laws b.c).requiresFReset r.1))) ▸ hI

end
end Hydrax
