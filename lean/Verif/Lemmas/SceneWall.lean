import Verif.Lemmas.SceneUnique
import Verif.Lemmas.SceneGrid
import Verif.Props.Frame

/-!
# One USL call as seen by one body, with the grid it reads (helper lemmas)
-/

set_option linter.unusedSectionVars false

namespace Hydrax

section
variable {z : Sz} {K : Type*} [Field K] [LinearOrder K] [FloorRing K] {dim : ℕ} {SS LS : Type*}
  {fn : MathFns K} {sv : Solver z K dim SS LS (ForceState K dim)}

theorem mapGrids_nodeGeoms (f : GridArrays K dim → GridArrays K dim) (gs : List (Fin z.G))
    (x : Ctx z K dim SS LS (ForceState K dim)) : (mapGrids f gs x).cache.nodeGeoms = x.cache.nodeGeoms := by
  unfold mapGrids
  induction gs generalizing x with
  | nil => rfl
  | cons g gs ih => rw [List.foldl_cons, ih]; rfl

theorem libForce_nodeGeoms {f : ForceHooks z K dim SS LS (ForceState K dim)} (hf : LibForce f)
    (x x') (dt time : K) (h : f.gridForces x dt time = .ok x' ∨ f.gridMoments x dt time = .ok x') :
    x'.cache.nodeGeoms = x.cache.nodeGeoms := by
  cases hf with
  | gravity onGrid ps gs fIdx =>
    rcases h with h | h
    · simp only [gravityForce] at h
      split_ifs at h
      · rw [← Except.ok.inj h]
      · obtain ⟨a, -, h⟩ := andThen_ok.mp h
        rw [← Except.ok.inj h, mapGrids_nodeGeoms]
    · rw [← Except.ok.inj h]
  | damping onGrid ps gs fIdx =>
    rcases h with h | h
    · simp only [dampingForce] at h
      split_ifs at h
      · rw [← Except.ok.inj h]
      · obtain ⟨a, -, h⟩ := andThen_ok.mp h
        rw [← Except.ok.inj h, mapGrids_nodeGeoms]
    · rw [← Except.ok.inj h]
  | sdfCollider fn sdf gs gap base =>
    rcases h with h | h
    · rw [← Except.ok.inj h]
    · cases sdf with
      | none => rw [← Except.ok.inj h]
      | some d =>
        have := Except.ok.inj h; subst this
        clear h
        induction gs generalizing x with
        | nil => rfl
        | cons g gs ih => rw [List.foldl_cons, ih]; rfl
  | gridContact =>
    rcases h with h | h
    · rw [← Except.ok.inj h]
    · simp [gridContactForce] at h

theorem foldE_append {σ α : Type*} {f : σ → α → Except PyErr σ} {s s' : σ} (l l' : List α)
    (h : foldE f s (l ++ l') = .ok s') : ∃ s1, foldE f s l = .ok s1 ∧ foldE f s1 l' = .ok s' := by
  induction l generalizing s with
  | nil => exact ⟨s, rfl, h⟩
  | cons a l ih =>
    obtain ⟨s1, h1, h2⟩ := foldE_cons_ok.mp h
    obtain ⟨s2, h3, h4⟩ := ih h2
    exact ⟨s2, foldE_cons_ok.mpr ⟨s1, h1, h3⟩, h4⟩

/-- The grids of a USL call after the last hook of the forces: the arrays from which the points are updated (the stages of
`callWith` up to `integrateGrid`). -/
def uslGrids (fn : MathFns K) (sv : Solver z K dim SS LS (ForceState K dim))
    (st : SimState z K dim SS LS (ForceState K dim)) : Except PyErr (Fin z.G → GridArrays K dim) :=
  andThen (kinematicUpdate sv st.world st.mech st.dt st.time) fun wm =>
  let w := resetMaterialPoints sv wm.1
  andThen (uslP2g sv { world := w, mech := wm.2, cache := buildCache fn sv w st.dt } st.dt st.time) fun x =>
  andThen (integrateGrid sv x st.dt st.time) fun x => .ok x.cache.grids

/-- **One USL call, one body, its grid.** -/
theorem usl_unique (hL : ∀ c, (sv.laws c).OnlyStress) (pre : List (ForceHooks z K dim SS LS (ForceState K dim)))
    (last : ForceHooks z K dim SS LS (ForceState K dim)) (hfs : sv.forces = pre ++ [last])
    (hf : ∀ f ∈ sv.forces, LibForce f)
    (hn : (sv.couplings.map (·.p)).Nodup)
    {st st' : SimState z K dim SS LS (ForceState K dim)} (h : uslCall fn sv st = .ok st')
    (c : Coupling z) (hc : c ∈ sv.couplings) (hs : c.skip = false) :
    ∃ s s1 σ, ∃ x y : Ctx z K dim SS LS (ForceState K dim), st.world.bodies c.p = .deformable s ∧ SameButScratch _ s s1 ∧
      uslGrids fn sv st = .ok y.cache.grids ∧ last.gridMoments x st.dt st.time = .ok y ∧
      (∀ g d, x.cache.nodeGeoms g d =
        { dists := fun j => (sv.sdfs d).dist ((sv.sdfs d).updateKin (st.world.sdfs d) st.dt) ((sv.domains g).positionStack j)
            - (sv.domains g).cellSize * 1
          normals := fun j => (sv.sdfs d).normal ((sv.sdfs d).updateKin (st.world.sdfs d) st.dt)
            ((sv.domains g).positionStack j)
          wallVels := fun j => (sv.sdfs d).velocity ((sv.sdfs d).updateKin (st.world.sdfs d) st.dt)
            ((sv.domains g).positionStack j) st.dt
          friction := fun j => (sv.sdfs d).friction ((sv.sdfs d).updateKin (st.world.sdfs d) st.dt)
            ((sv.domains g).positionStack j) }) ∧
      st'.world.bodies c.p = .deformable (removeShear fn (sv.laws c.c).requiresFReset
        { g2pBody sv.alpha st.dt (compute c.ker (sv.domains c.g) s.position) none (y.cache.grids c.g) s1 with
          stress := σ }) := by
  obtain ⟨wm, x1, x2, x3, x4, h1, h2, h3, h4, h5, rfl⟩ := callWith_ok h
  have hgr : uslGrids fn sv st = .ok x2.cache.grids := by
    unfold uslGrids
    exact andThen_ok.mpr ⟨wm, h1, andThen_ok.mpr ⟨x1, h2, andThen_ok.mpr ⟨x2, h3, rfl⟩⟩⟩
  have hk := kinematicUpdate_lib hf _ _ _ _ _ h1
  obtain ⟨x0, h20, h21⟩ := andThen_ok.mp h2
  have hrefl : ∀ n (s : MPState K dim n), SameButScratch n s s := fun _ _ => rfl
  have htrans : ∀ n (a b c : MPState K dim n), SameButScratch n a b → SameButScratch n b c → SameButScratch n a c := by
    intro n a b c h1 h2
    unfold SameButScratch at *
    rw [h2, h1]
  have r0 := preP2g_lib (R := SameButScratch) (fun _ _ _ => rfl) hrefl htrans hf _ _ _ _ h20
  have r1 := same_of_fold sv.couplings x0 x1 (fun c _ x x' hx => p2gCoupling_world x x' c hx) h21
  have r2 := integrateGrid_lib hf _ _ _ _ h3
  have n1 : x1.cache.nodeGeoms = x0.cache.nodeGeoms := by
    refine foldE_inv (I := fun y => y.cache.nodeGeoms = x0.cache.nodeGeoms) sv.couplings x0 x1 rfl ?_ h21
    intro b _ y y' hy hyy
    rw [← hy]
    unfold p2gCoupling at hyy
    split_ifs at hyy
    · rw [← Except.ok.inj hyy]
    · split at hyy
      · exact absurd hyy (by simp)
      · split at hyy
        · exact absurd hyy (by simp)
        · split_ifs at hyy
          rw [← Except.ok.inj hyy]; rfl
  obtain ⟨y1, h31, h3⟩ := andThen_ok.mp h3
  obtain ⟨y2, h32, h33⟩ := andThen_ok.mp h3
  have n2 : y1.cache.nodeGeoms = x1.cache.nodeGeoms :=
    foldE_inv (I := fun y => y.cache.nodeGeoms = x1.cache.nodeGeoms) sv.forces x1 y1 rfl
      (fun f hfm y y' hy hyy => (libForce_nodeGeoms (hf f hfm) y y' _ _ (.inl hyy)).trans hy) h31
  have n3 : y2.cache.nodeGeoms = y1.cache.nodeGeoms := by
    refine foldE_inv (I := fun y => y.cache.nodeGeoms = y1.cache.nodeGeoms) sv.couplings y1 y2 rfl ?_ h32
    intro b _ y y' hy hyy
    rw [← hy]
    unfold integrateCoupling at hyy
    split_ifs at hyy <;> · rw [← Except.ok.inj hyy]; try rfl
  rw [hfs] at h33
  obtain ⟨x, h34, h35⟩ := foldE_append pre [last] h33
  have n4 : x.cache.nodeGeoms = y2.cache.nodeGeoms :=
    foldE_inv (I := fun y => y.cache.nodeGeoms = y2.cache.nodeGeoms) pre y2 x rfl
      (fun f hfm y y' hy hyy => (libForce_nodeGeoms (hf f (by rw [hfs]; simp [hfm])) y y' _ _ (.inr hyy)).trans hy) h34
  have h36 : last.gridMoments x st.dt st.time = .ok x2 := by
    obtain ⟨s1, a1, a2⟩ := foldE_cons_ok.mp h35
    rw [a1]; exact a2
  have hi : x2.cache.interactions c.p c.g = some ⟨c.ker, compute c.ker (sv.domains c.g) (wm.1.bodies c.p).position⟩ := by
    rw [r2.2.2.1, r1.2.2.1, r0.2.2, buildCache_interactions, computeConnectivity_self sv _ hn c hc]
    congr 3
    simp only [resetMaterialPoints]
    split_ifs
    · cases wm.1.bodies c.p <;> rfl
    · rfl
  have b1 := reset_rel (sv := sv) (R := SameButScratch) (fun _ _ => rfl) hrefl wm.1 c.p
  have b2 : Body.Rel SameButScratch (st.world.bodies c.p) (x2.world.bodies c.p) := by
    rw [r2.1, r1.1, ← hk.1]
    exact b1.trans htrans (r0.1.1 c.p)
  have e3 : ∃ s1, x2.world.bodies c.p = .deformable s1 ∧ x3.world.bodies c.p = .deformable
      (g2pBody sv.alpha st.dt (compute c.ker (sv.domains c.g) (wm.1.bodies c.p).position) none (x2.cache.grids c.g) s1) := by
    refine (foldE_once (A := fun y => y.cache = x2.cache ∧ y.world.bodies c.p = x2.world.bodies c.p)
      (B := fun y => y.cache = x2.cache ∧ ∃ s1, x2.world.bodies c.p = .deformable s1 ∧ y.world.bodies c.p = .deformable
        (g2pBody sv.alpha st.dt (compute c.ker (sv.domains c.g) (wm.1.bodies c.p).position) none (x2.cache.grids c.g) s1))
      hn hc ?_ ?_ ?_ ⟨rfl, rfl⟩ h4).2
    · rintro b - hbc y y' ⟨a1, a2⟩ hy
      cases hsb : b.skip with
      | true => rw [g2pCoupling_skip hsb hy]; exact ⟨a1, a2⟩
      | false =>
        obtain ⟨ker, ic, s, -, -, rfl⟩ := g2pCoupling_ok hsb hy
        exact ⟨a1, by rw [setBody_ne _ (Ne.symm hbc)]; exact a2⟩
    · rintro b - hbc y y' ⟨a1, a2⟩ hy
      cases hsb : b.skip with
      | true => rw [g2pCoupling_skip hsb hy]; exact ⟨a1, a2⟩
      | false =>
        obtain ⟨ker, ic, s, -, -, rfl⟩ := g2pCoupling_ok hsb hy
        exact ⟨a1, by rw [setBody_ne _ (Ne.symm hbc)]; exact a2⟩
    · rintro y y' ⟨a1, a2⟩ hy
      obtain ⟨ker, ic, s, hic, hb, rfl⟩ := g2pCoupling_ok hs hy
      rw [a1, hi] at hic
      obtain ⟨rfl, hic⟩ := Sigma.mk.inj (Option.some.inj hic)
      obtain rfl := eq_of_heq hic
      rw [a2] at hb
      refine ⟨a1, s, hb, (setBody_self _ _ _).trans ?_⟩
      rw [ghost_irrelevant, a1]
  obtain ⟨s1, e1, e4⟩ := e3
  set r := g2pBody sv.alpha st.dt (compute c.ker (sv.domains c.g) (wm.1.bodies c.p).position) none (x2.cache.grids c.g) s1
    with hr
  have e5 : ∃ σ, x4.world.bodies c.p = .deformable (removeShear fn (sv.laws c.c).requiresFReset { r with stress := σ }) := by
    refine foldE_once (A := fun y => y.world.bodies c.p = .deformable r)
      (B := fun y => ∃ σ, y.world.bodies c.p =
        .deformable (removeShear fn (sv.laws c.c).requiresFReset { r with stress := σ })) hn hc ?_ ?_ ?_ e4 h5
    · rintro b - hbc y y' a hy
      cases hsb : b.skip with
      | true => rw [lawCoupling_skip hsb hy]; exact a
      | false =>
        obtain ⟨s, q, -, -, rfl⟩ := lawCoupling_ok hsb hy
        exact (setBody_ne y (Ne.symm hbc) (.deformable (removeShear fn (sv.laws b.c).requiresFReset q.1))).trans a
    · rintro b - hbc y y' ⟨σ, a⟩ hy
      cases hsb : b.skip with
      | true => rw [lawCoupling_skip hsb hy]; exact ⟨σ, a⟩
      | false =>
        obtain ⟨s, q, -, -, rfl⟩ := lawCoupling_ok hsb hy
        exact ⟨σ, (setBody_ne y (Ne.symm hbc) (.deformable (removeShear fn (sv.laws b.c).requiresFReset q.1))).trans a⟩
    · rintro y y' a hy
      obtain ⟨s, q, hb, hq, rfl⟩ := lawCoupling_ok hs hy
      rw [a] at hb
      obtain rfl := Body.deformable.inj hb
      refine ⟨q.1.stress, (setBody_self y _ _).trans ?_⟩
      rw [← hL c.c r _ _ q hq]
  obtain ⟨σ, e5⟩ := e5
  rw [e1] at b2
  cases hb : st.world.bodies c.p with
  | rigid _ => rw [hb] at b2; exact b2.elim
  | deformable s =>
    rw [hb] at b2
    refine ⟨s, s1, σ, x, x2, rfl, b2, hgr, h36, fun g d => ?_, ?_⟩
    · rw [n4, n3, n2, n1, r0.2.2]
      simp only [buildCache, sdfGeom, resetMaterialPoints, hk.2.2]
    · rw [show x4.world.bodies c.p = _ from e5, hr, show (wm.1.bodies c.p).position = s.position by rw [hk.1, hb]; rfl]

/-- After a USL call every obstacle is in the state its own update gave it. -/
theorem usl_sdfs (hf : ∀ f ∈ sv.forces, LibForce f)
    {st st' : SimState z K dim SS LS (ForceState K dim)} (h : uslCall fn sv st = .ok st') :
    (∀ d, st'.world.sdfs d = (sv.sdfs d).updateKin (st.world.sdfs d) st.dt) ∧ st'.dt = st.dt := by
  obtain ⟨wm, x1, x2, x3, x4, h1, h2, h3, h4, h5, rfl⟩ := callWith_ok h
  have hk := kinematicUpdate_lib hf _ _ _ _ _ h1
  obtain ⟨x0, h20, h21⟩ := andThen_ok.mp h2
  have r0 : x0.world.sdfs = wm.1.sdfs := by
    refine foldE_inv (I := fun y => y.world.sdfs = wm.1.sdfs) sv.forces _ x0 rfl ?_ h20
    intro f hfm y y' hy hyy
    rw [← hy]
    have hlf := hf f hfm
    cases hlf with
    | gravity onGrid ps gs fIdx =>
      simp only [gravityForce] at hyy
      split_ifs at hyy
      · rw [← Except.ok.inj hyy]
      · split at hyy
        · exact absurd hyy (by simp)
        · rw [← Except.ok.inj hyy]
      · obtain ⟨a, -, hyy⟩ := andThen_ok.mp hyy
        exact absurd hyy (by simp)
    | damping onGrid ps gs fIdx =>
      simp only [dampingForce] at hyy
      split_ifs at hyy
      · rw [← Except.ok.inj hyy]
      · obtain ⟨a, -, hyy⟩ := andThen_ok.mp hyy
        refine foldE_inv (I := fun x => x.world.sdfs = y.world.sdfs) ps y y' rfl ?_ hyy
        intro p _ u u' hu huu
        split at huu
        · exact absurd huu (by simp)
        · rw [← hu, ← Except.ok.inj huu]; rfl
    | sdfCollider fn sdf gs gap base => rw [← Except.ok.inj hyy]
    | gridContact => rw [← Except.ok.inj hyy]
  have r1 := same_of_fold sv.couplings x0 x1 (fun c _ x x' hx => p2gCoupling_world x x' c hx) h21
  have r2 := integrateGrid_lib hf _ _ _ _ h3
  have r3 : x3.world.sdfs = x2.world.sdfs := by
    refine foldE_inv (I := fun y => y.world.sdfs = x2.world.sdfs) sv.couplings x2 x3 rfl ?_ h4
    intro b _ y y' hy hyy
    rw [← hy]
    cases hsb : b.skip with
    | true => rw [g2pCoupling_skip hsb hyy]
    | false => obtain ⟨ker, ic, s, -, -, rfl⟩ := g2pCoupling_ok hsb hyy; rfl
  have r4 : x4.world.sdfs = x3.world.sdfs := by
    refine foldE_inv (I := fun y => y.world.sdfs = x3.world.sdfs) sv.couplings x3 x4 rfl ?_ h5
    intro b _ y y' hy hyy
    rw [← hy]
    cases hsb : b.skip with
    | true => rw [lawCoupling_skip hsb hyy]
    | false => obtain ⟨s, q, -, -, rfl⟩ := lawCoupling_ok hsb hyy; rfl
  refine ⟨fun d => ?_, rfl⟩
  change x4.world.sdfs d = _
  rw [r4, r3, r2.1, r1.1, r0, hk.2.2]

end
end Hydrax
