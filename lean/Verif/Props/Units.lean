import Verif.Lemmas.UnitScene
import Verif.Props.Momentum
import Verif.Props.Invariants
import Verif.Props.Sdf
import Verif.Props.Frame
import Mathlib.Analysis.Calculus.Deriv.Mul
import Mathlib.Analysis.Calculus.Deriv.Comp

/-!
# The units of length, time and mass do not matter (C120)
-/

set_option linter.unusedSectionVars false

namespace Hydrax
open Spec UnitChange

section
variable {z : Sz} {K : Type*} [Field K] [LinearOrder K] [IsStrictOrderedRing K] [FloorRing K] {dim : ℕ} {SS : Type*}
  {fn : MathFns K} {sv sv' : Solver z K dim SS (LawState K) (ForceState K dim)} {u : UnitSystem K} {f : Fin z.D → SS → SS}

/-- One coupling per body; the mass cutoffs of the code treat every nodal mass alike in both systems of units. -/
structure Spec.UnitSystem.Fair (u : UnitSystem K) (sv : Solver z K dim SS (LawState K) (ForceState K dim)) (w : World z K dim SS) : Prop where
  single : (sv.couplings.map (·.p)).Nodup
  weighed : ∀ g j, Weighed u (gridSum sv.couplings g (fun c => (w.bodies c.p).nodeMass c.ker (sv.domains c.g) j))

theorem forceIn_lib {h h' : ForceHooks z K dim SS (LawState K) (ForceState K dim)} (hf : u.ForceIn h h') : LibForce h := by
  cases hf with
  | gravity => exact .gravity _ _ _ _
  | damping => exact .damping _ _ _ _
  | collider => exact .sdfCollider _ _ _ _ _

theorem solverIn_lib (hs : u.SolverIn f sv sv') : ∀ h ∈ sv.forces, LibForce h := by
  have key : ∀ l l' : List (ForceHooks z K dim SS (LawState K) (ForceState K dim)), List.Forall₂ u.ForceIn l l' → ∀ h ∈ l, LibForce h := by
    intro l l' hl
    induction hl with
    | nil => intro h hh; exact absurd hh List.not_mem_nil
    | cons h _ ih =>
      intro k hk
      rcases List.mem_cons.mp hk with rfl | hk
      · exact forceIn_lib h
      · exact ih k hk
  exact key _ _ hs.forces

theorem ExSym.eq_map {α : Type*} {F : α → α} {x y : Except PyErr α} (h : ExSym (fun a b => b = F a) x y) : y = x.map F := by
  cases h with
  | ok h => rw [h]; rfl
  | error e => rfl

/-- **C120.** One step of the USL solver with gravity, damping and smooth obstacles: computing in other units of length, time and mass
gives the result of the computation in the first units, converted. Parts: laws that are homogeneous in the units (elastic, fluid, mu(I);
see below) and obstacles without friction; every nodal mass on the same side of the mass cutoffs in both systems. -/
theorem step_units_partial (hs : u.SolverIn f sv sv') (st : SimState z K dim SS (LawState K) (ForceState K dim))
    (hfair : u.Fair sv st.world) :
    uslCall fn sv' (u.state f st) = (uslCall fn sv st).map (u.state f) := by
  apply ExSym.eq_map
  unfold uslCall callWith
  have hlib := solverIn_lib hs
  have hk := kin_units hs st.world st.mech st.dt st.time (u.time * st.time)
  have hd : (u.state f st).dt = u.time * st.dt := rfl
  have ht : (u.state f st).time = u.time * st.time := rfl
  have hw : (u.state f st).world = u.world f st.world := rfl
  have hm : (u.state f st).mech = u.mech st.mech := rfl
  rw [hd, ht, hw, hm]
  cases h1 : kinematicUpdate sv st.world st.mech st.dt st.time with
  | error e =>
    rw [h1] at hk
    generalize kinematicUpdate sv' (u.world f st.world) (u.mech st.mech) (u.time * st.dt) (u.time * st.time) = y at hk ⊢
    cases hk
    exact .error e
  | ok wm =>
    rw [h1] at hk
    have hkin := kinematicUpdate_lib hlib _ _ _ _ _ h1
    generalize kinematicUpdate sv' (u.world f st.world) (u.mech st.mech) (u.time * st.dt) (u.time * st.time) = y at hk ⊢
    cases hk with
    | ok hr =>
    subst hr
    simp only [andThen]
    rw [resetAll_units hs, cache_units hs]
    set w0 := resetMaterialPoints sv wm.1 with hw0
    set x0 : Ctx z K dim SS (LawState K) (ForceState K dim) := ⟨w0, wm.2, buildCache fn sv w0 st.dt⟩ with hx0
    have hx0' : (⟨u.world f w0, u.mech wm.2, u.cache (buildCache fn sv w0 st.dt)⟩ : Ctx z K dim SS (LawState K) (ForceState K dim)) =
      u.ctx f x0 := rfl
    rw [hx0']
    -- scatter
    have hp : ExSym (CtxIn1 u f) (uslP2g sv x0 st.dt st.time) (uslP2g sv' (u.ctx f x0) (u.time * st.dt) (u.time * st.time)) := by
      have h2 : ExSym (CtxIn u f) (uslP2g sv x0 st.dt st.time) (uslP2g sv' (u.ctx f x0) (u.time * st.dt) (u.time * st.time)) := by
        unfold uslP2g
        refine ExSym.andThen (R := CtxIn u f) ?_ ?_
        · exact ExSym.foldE2 (Q := u.ForceIn) (fun a b i j hij hab => hook_pre hij hab _ _ _ _) hs.forces rfl
        · intro a b hab
          rw [hs.couplings]
          exact ExSym.foldE (fun a b c hab => p2gCoupling_units c hab) _ hab
      cases h3 : uslP2g sv x0 st.dt st.time with
      | error e =>
        rw [h3] at h2
        generalize uslP2g sv' (u.ctx f x0) (u.time * st.dt) (u.time * st.time) = y at h2 ⊢
        cases h2
        exact .error e
      | ok x1 =>
        rw [h3] at h2
        generalize uslP2g sv' (u.ctx f x0) (u.time * st.dt) (u.time * st.time) = y at h2 ⊢
        cases h2 with
        | ok hr =>
        refine .ok ⟨hr, fun g j => ?_⟩
        obtain ⟨xa, h4, h5⟩ := andThen_ok.mp h3
        have hpre := preP2g_lib (R := fun _ s s' => s'.mass = s.mass ∧ s'.position = s.position) (fun _ _ _ => ⟨rfl, rfl⟩)
          (fun _ _ => ⟨rfl, rfl⟩) (fun _ _ _ _ h h' => ⟨h'.1.trans h.1, h'.2.trans h.2⟩) hlib x0 xa _ _ h4
        have hpos : ∀ p, (xa.world.bodies p).position = (w0.bodies p).position ∧
            ∀ ker dom, (xa.world.bodies p).nodeMass ker dom = (st.world.bodies p).nodeMass ker dom := by
          intro p
          have hb : ∀ ker dom, (w0.bodies p).nodeMass ker dom = (st.world.bodies p).nodeMass ker dom := by
            intro ker dom
            rw [hw0, (reset_nodeMass sv wm.1 p ker dom).1, hkin.1]
          have hrel := hpre.1.1 p
          have e0 : x0.world.bodies p = w0.bodies p := rfl
          rw [e0] at hrel
          simp only [← hb]
          generalize w0.bodies p = b0 at hrel ⊢
          generalize xa.world.bodies p = b1 at hrel ⊢
          cases b0 <;> cases b1
          · obtain ⟨h6, h7⟩ := hrel
            refine ⟨h7, fun ker dom => ?_⟩
            funext j
            simp only [Body.nodeMass, h6, h7]
          · exact hrel.elim
          · exact hrel.elim
          · have : _ = _ := hrel
            subst this
            exact ⟨rfl, fun _ _ => rfl⟩
        have hl : HasLists sv.domains xa sv.couplings := by
          intro c hc
          rw [hpre.2.2, (hpos c.p).1]
          show (buildCache fn sv w0 st.dt).interactions c.p c.g = _
          rw [buildCache_interactions]
          exact computeConnectivity_self sv w0 hfair.single c hc
        have hsum := (p2g_fold_sums sv.domains sv.couplings xa x1 hl h5 g j).1
        rw [hsum, hpre.2.2]
        simp only [fun p => (hpos p).2]
        have h0 : (x0.cache.grids g).mass j = 0 := rfl
        rw [h0, zero_add]
        exact hfair.weighed g j
    refine ExSym.andThen (R := CtxIn1 u f) hp ?_
    intro x1 x1' hx1
    have hg : ExSym (CtxIn1 u f) (integrateGrid sv x1 st.dt st.time) (integrateGrid sv' x1' (u.time * st.dt) (u.time * st.time)) := by
      unfold integrateGrid
      refine ExSym.andThen (R := CtxIn1 u f) ?_ ?_
      · exact ExSym.foldE2 (Q := u.ForceIn) (fun a b i j hij hab => hook_forces hij hab _ _ _ _) hs.forces hx1
      · intro a b hab
        refine ExSym.andThen (R := CtxIn1 u f) ?_ ?_
        · rw [hs.couplings]
          exact ExSym.foldE (fun a b c hab => integrateCoupling_units _ c hab) _ hab
        · intro a b hab
          exact ExSym.foldE2 (Q := u.ForceIn) (fun a b i j hij hab => hook_moments hij hab _ _ _ _) hs.forces hab
    refine ExSym.andThen hg ?_
    intro x2 x2' hx2
    have hgather : ExSym (CtxIn1 u f) (uslG2p sv x2 st.dt st.time) (uslG2p sv' x2' (u.time * st.dt) (u.time * st.time)) := by
      unfold uslG2p
      rw [hs.couplings, hs.alpha]
      exact ExSym.foldE (fun a b c hab => g2pCoupling_units _ _ c hab) _ hx2
    refine ExSym.andThen hgather ?_
    intro x3 x3' hx3
    have hlaw : ExSym (CtxIn u f) (constitutiveUpdate fn sv x3 st.dt st.time)
        (constitutiveUpdate fn sv' x3' (u.time * st.dt) (u.time * st.time)) := by
      unfold constitutiveUpdate
      rw [hs.couplings]
      exact ExSym.foldE (fun a b c hab => lawCoupling_units hs _ c hab) _ hx3.1
    refine ExSym.andThen hlaw ?_
    rintro x4 x4' rfl
    refine .ok ?_
    simp only [Spec.UnitSystem.state, Spec.UnitSystem.ctx, SimState.mk.injEq, true_and]
    rw [mul_add]
    exact ⟨rfl, trivial⟩

/-- **C120.** The same for every run. -/
theorem run_units_partial (hs : u.SolverIn f sv sv') (n : ℕ) (st : SimState z K dim SS (LawState K) (ForceState K dim))
    (hfair : AlongRun fn sv n st (u.Fair sv)) :
    runSteps (uslCall fn sv') n (u.state f st) = (runSteps (uslCall fn sv) n st).map (u.state f) := by
  induction n with
  | zero => rfl
  | succ n ih =>
    have ih := ih fun i hi => hfair i (by omega)
    simp only [runSteps, ih]
    cases h : runSteps (uslCall fn sv) n st with
    | error e => rfl
    | ok a =>
      show uslCall fn sv' (u.state f a) = (uslCall fn sv a).map (u.state f)
      exact step_units_partial hs a (hfair n (by omega) a h)

/-- Nodal masses of bodies with nonnegative masses are nonnegative. -/
theorem gridSum_mass_nonneg (sv : Solver z K dim SS (LawState K) (ForceState K dim)) (w : World z K dim SS)
    (hm : ∀ p s, w.bodies p = .deformable s → ∀ q, 0 ≤ s.mass q) (g : Fin z.G) (j : ℕ) :
    0 ≤ gridSum sv.couplings g (fun c => (w.bodies c.p).nodeMass c.ker (sv.domains c.g) j) := by
  refine List.sum_nonneg fun x hx => ?_
  obtain ⟨c, hc, rfl⟩ := List.mem_map.mp hx
  split_ifs with hh
  · cases hb : w.bodies c.p with
    | rigid r => simp [hb, Body.nodeMass]
    | deformable s =>
      simp only [hb, Body.nodeMass, nodeMass, scatterAdd]
      refine Finset.sum_nonneg fun i _ => ?_
      split_ifs
      · exact mul_nonneg (computeSingle_val_nonneg _ _ _ _) (hm _ s hb _)
      · exact le_rfl
  · exact le_rfl

/-- **C120.** With the same unit of mass no condition on the nodal masses is left: units of length and time never matter (same laws and
obstacles). -/
theorem run_length_time_units_partial (hu : u.mass = 1) (hs : u.SolverIn f sv sv') (hL : ∀ c, (sv.laws c).OnlyStress)
    (hsingle : (sv.couplings.map (·.p)).Nodup) (n : ℕ) (st : SimState z K dim SS (LawState K) (ForceState K dim))
    (hm : ∀ p s, st.world.bodies p = .deformable s → ∀ q, 0 ≤ s.mass q) :
    runSteps (uslCall fn sv') n (u.state f st) = (runSteps (uslCall fn sv) n st).map (u.state f) := by
  refine run_units_partial hs n st fun i _ si hi => ⟨hsingle, fun g j => Weighed.of_same hu (gridSum_mass_nonneg sv si.world ?_ g j)⟩
  intro p s hb q
  have hrel := run_rel massClosed hL (solverIn_lib hs) (.inl rfl) i st si hi p
  cases hb0 : st.world.bodies p with
  | rigid r => rw [hb, hb0] at hrel; exact hrel.elim
  | deformable s0 =>
    rw [hb, hb0] at hrel
    rw [show s.mass = s0.mass from hrel.1]
    exact hm p s0 hb0 q

end

/-! ### Obstacles of the package in the new units -/

section
variable {K : Type*} [Field K] [LinearOrder K] [IsStrictOrderedRing K] {dim m : ℕ} (u : UnitSystem K)

/-- The state of an obstacle in the new units: angles and quaternions are pure numbers. -/
def Spec.UnitSystem.sdf (s : SdfState K dim) : SdfState K dim :=
  { com := fun a => u.len * s.com a
    velocity := fun a => u.vel * s.velocity a
    angle := s.angle
    omega := s.omega / u.time
    quat := s.quat
    omega3 := fun a => s.omega3 a / u.time }

theorem sdfVelocity_units : (dim : ℕ) → (s : SdfState K dim) → (x : Fin dim → K) →
    sdfVelocity (u.sdf s) (fun a => u.len * x a) = fun a => u.vel * sdfVelocity s x a
  | 0, _, _ => funext fun a => a.elim0
  | 1, s, x => by
    funext a
    simp [sdfVelocity, spinVel, Spec.UnitSystem.sdf]
  | 2, s, x => by
    funext a
    simp only [sdfVelocity, spinVel, Spec.UnitSystem.sdf, Spec.UnitSystem.vel]
    fin_cases a <;> simp <;> ring
  | 3, s, x => by
    funext a
    simp only [sdfVelocity, spinVel, Spec.UnitSystem.sdf, Spec.UnitSystem.vel, cross3]
    fin_cases a <;> simp <;> ring
  | n + 4, s, x => by
    funext a
    simp [sdfVelocity, spinVel, Spec.UnitSystem.sdf]

theorem minv_units {c : K} (hc : 0 < c) (f : Fin (m + 1) → K) : minv (fun i => c * f i) = c * minv f := by
  rw [← argmin_minv, ← argmin_minv, argmin_units hc]

/-- The walls of a domain in the new units. -/
def Spec.UnitSystem.box (d : DomainParams K dim) : DomainParams K dim :=
  { lo := fun a => u.len * d.lo a, hi := fun a => u.len * d.hi a, frictions := d.frictions }

theorem domainDists_units (d : DomainParams K dim) (x : Fin dim → K) :
    domainDists (u.box d) (fun a => u.len * x a) = fun i => u.len * domainDists d x i := by
  funext i
  unfold domainDists
  split_ifs <;> simp only [Spec.UnitSystem.box] <;> ring

theorem domainWall_units (d : DomainParams K (m + 1)) (x : Fin (m + 1) → K) :
    domainWall (u.box d) (fun a => u.len * x a) = domainWall d x := by
  unfold domainWall
  rw [domainDists_units]
  exact argmin_units u.len_pos (m + 1 + m) (domainDists d x)

/-- **C120.** The walls of the domain are an obstacle whose units do not matter. -/
theorem domain_units (d : DomainParams K (m + 1)) : u.SdfIn (domainSdf d) (domainSdf (u.box d)) u.sdf where
  kin _ _ := rfl
  dist s x := by
    show domainDist (u.box d) (fun a => u.len * x a) = u.len * domainDist d x
    unfold domainDist
    rw [domainDists_units]
    exact minv_units u.len_pos (m := m + 1 + m) (domainDists d x)
  normal s x := by
    show domainNormal (u.box d) (fun a => u.len * x a) = domainNormal d x
    unfold domainNormal
    rw [domainWall_units]
  velocity s x dt := sdfVelocity_units u _ s x
  friction s x := by
    show domainFriction (u.box d) (fun a => u.len * x a) = domainFriction d x
    unfold domainFriction
    rw [domainWall_units]
    rfl

/-- What a gradient operator must satisfy: the gradient of a distance measured in another unit of length is the same vector. -/
def GradHom (grad : ((Fin dim → K) → K) → (Fin dim → K) → Fin dim → K) : Prop :=
  ∀ (c : K) (φ ψ : (Fin dim → K) → K), 0 < c → (∀ x, ψ (fun a => c * x a) = c * φ x) → ∀ x, grad ψ (fun a => c * x a) = grad φ x

theorem toLocal_units (fn : MathFns K) (s : SdfState K 2) (x : Fin 2 → K) :
    toLocal fn (u.sdf s) (fun a => u.len * x a) = fun a => u.len * toLocal fn s x a := by
  funext a
  simp only [toLocal, rotInv, rot2Inv, Spec.UnitSystem.sdf]
  fin_cases a <;> simp <;> ring

/-- **C120.** In the plane, the same for every moving and turning obstacle whose own distance function is a length (`dist'` is `dist` in the new
units): discs, half planes and their unions. -/
theorem planar_obstacle_units (fn : MathFns K) {grad : ((Fin 2 → K) → K) → (Fin 2 → K) → Fin 2 → K} (hg : GradHom grad)
    {dist dist' fric fric' : (Fin 2 → K) → K} (hd : ∀ x, dist' (fun a => u.len * x a) = u.len * dist x)
    (hf : ∀ x, fric' (fun a => u.len * x a) = fric x) :
    u.SdfIn (baseSdf fn grad dist fric) (baseSdf fn grad dist' fric') u.sdf where
  kin s dt := by
    have ht := u.time_pos.ne'
    simp only [baseSdf, updateKin, if_true, Spec.UnitSystem.sdf, Spec.UnitSystem.vel, SdfState.mk.injEq, true_and]
    constructor
    · funext a
      field_simp
    · refine ⟨?_, trivial⟩
      field_simp
  dist s x := by
    show dist' (toLocal fn _ _) = u.len * dist (toLocal fn _ _)
    rw [toLocal_units, hd]
  normal s x := by
    have hloc : grad (fun y => dist' (toLocal fn (u.sdf s) y)) (fun a => u.len * x a) = grad (fun y => dist (toLocal fn s y)) x :=
      hg u.len _ _ u.len_pos (fun y => by rw [toLocal_units, hd]) x
    show autoNormal fn.sqrt grad (fun y => dist' (toLocal fn (u.sdf s) y)) _ = autoNormal fn.sqrt grad (fun y => dist (toLocal fn s y)) _
    unfold autoNormal
    rw [hloc]
  velocity s x dt := sdfVelocity_units u _ s x
  friction s x := by
    show fric' (toLocal fn _ _) = fric (toLocal fn _ _)
    rw [toLocal_units, hf]

theorem toLocal_units3 (fn : MathFns K) (s : SdfState K 3) (x : Fin 3 → K) :
    toLocal fn (u.sdf s) (fun a => u.len * x a) = fun a => u.len * toLocal fn s x a := by
  funext a
  simp only [toLocal, rotInv, quatRotate, quatInv, cross3, qVec, Spec.UnitSystem.sdf]
  fin_cases a <;> simp <;> ring

/-- The step of the quaternion depends on the angle turned in it only. -/
theorem integrateQuat_units (fn : MathFns K) (q : Fin 4 → K) (w : Fin 3 → K) {t : K} (ht : t ≠ 0) (dt : K) :
    integrateQuat fn q (fun a => w a / t) (t * dt) = integrateQuat fn q w dt := by
  have e : ∀ y, 1 / 2 * (t * dt) * (y / t) = 1 / 2 * dt * y := fun y => by field_simp
  have k : ∀ k : Fin 4, q k + 1 / 2 * (t * dt) * (![-(w 0 / t) * q 1 - w 1 / t * q 2 - w 2 / t * q 3,
      w 0 / t * q 0 + w 1 / t * q 3 - w 2 / t * q 2, -(w 0 / t) * q 3 + w 1 / t * q 0 + w 2 / t * q 1,
      w 0 / t * q 2 - w 1 / t * q 1 + w 2 / t * q 0] : Fin 4 → K) k =
      q k + 1 / 2 * dt * (![-w 0 * q 1 - w 1 * q 2 - w 2 * q 3, w 0 * q 0 + w 1 * q 3 - w 2 * q 2,
      -w 0 * q 3 + w 1 * q 0 + w 2 * q 1, w 0 * q 2 - w 1 * q 1 + w 2 * q 0] : Fin 4 → K) k := by
    intro k
    fin_cases k <;> simp <;> field_simp
  unfold integrateQuat
  simp only [k]

/-- **C120.** In space, the same for every moving and turning obstacle whose own distance function is a length: the orientation is
advanced by the angle turned in the step, which has no unit. -/
theorem spatial_obstacle_units (fn : MathFns K) {grad : ((Fin 3 → K) → K) → (Fin 3 → K) → Fin 3 → K} (hg : GradHom grad)
    {dist dist' fric fric' : (Fin 3 → K) → K} (hd : ∀ x, dist' (fun a => u.len * x a) = u.len * dist x)
    (hf : ∀ x, fric' (fun a => u.len * x a) = fric x) :
    u.SdfIn (baseSdf fn grad dist fric) (baseSdf fn grad dist' fric') u.sdf where
  kin s dt := by
    have ht := u.time_pos.ne'
    simp only [baseSdf, updateKin, Spec.UnitSystem.sdf, Spec.UnitSystem.vel]
    rw [if_neg (by norm_num), if_neg (by norm_num)]
    simp only [SdfState.mk.injEq, true_and, and_true]
    constructor
    · funext a
      field_simp
    · exact integrateQuat_units fn s.quat s.omega3 ht dt
  dist s x := by
    show dist' (toLocal fn _ _) = u.len * dist (toLocal fn _ _)
    rw [toLocal_units3, hd]
  normal s x := by
    have hloc : grad (fun y => dist' (toLocal fn (u.sdf s) y)) (fun a => u.len * x a) = grad (fun y => dist (toLocal fn s y)) x :=
      hg u.len _ _ u.len_pos (fun y => by rw [toLocal_units3, hd]) x
    show autoNormal fn.sqrt grad (fun y => dist' (toLocal fn (u.sdf s) y)) _ = autoNormal fn.sqrt grad (fun y => dist (toLocal fn s y)) _
    unfold autoNormal
    rw [hloc]
  velocity s x dt := sdfVelocity_units u _ s x
  friction s x := by
    show fric' (toLocal fn _ _) = fric (toLocal fn _ _)
    rw [toLocal_units3, hf]

/-- The half plane and the disc are such obstacles. -/
theorem planeDist_units (nrm x : Fin dim → K) : planeDist nrm (fun a => u.len * x a) = u.len * planeDist nrm x := by
  simp only [planeDist, dotv, Finset.mul_sum, mul_assoc]

theorem sphereDist_units {fn : MathFns K} (hsq : SqrtHom fn) (r : K) (x : Fin dim → K) :
    sphereDist fn (u.len * r) (fun a => u.len * x a) = u.len * sphereDist fn r x := by
  unfold sphereDist norm2
  rw [mul_sub, ← hsq _ _ u.len_pos]
  simp only [mul_pow, Finset.mul_sum]

end

/-- The real square root is homogeneous. -/
theorem sqrtHom_real : SqrtHom realFns := fun c x hc => by
  show Real.sqrt (c ^ 2 * x) = c * Real.sqrt x
  rw [Real.sqrt_mul (sq_nonneg c), Real.sqrt_sq hc.le]

/-! ### Laws of the package in the new units -/

section
variable {K : Type*} [Field K] [LinearOrder K] [IsStrictOrderedRing K] {dim : ℕ} (u : UnitSystem K)

/-- **C120.** The elastic law in the new units: the modulus converted, the Poisson ratio kept. -/
theorem elastic_law_units (E nu : K) (reset : Bool) :
    u.LawIn (elasticLaw (dim := dim) E nu reset) (elasticLaw (u.stress dim * E) nu reset) := elastic_units u E nu reset

/-- **C120.** The fluid in the new units. -/
theorem fluid_law_units (fn : MathFns K) (pr : FluidParams K) (reset : Bool) :
    u.LawIn (fluidLaw (dim := dim) fn pr reset) (fluidLaw fn (u.fluid dim pr) reset) := fluid_units u fn pr reset

/-- **C120.** The mu(I) law in the new units. -/
theorem muI_law_units {fn : MathFns K} (hsq : SqrtHom fn) (pr : MuIParams K) (reset : Bool) :
    u.LawIn (muILaw (dim := dim) fn pr reset) (muILaw fn (u.muI dim pr) reset) := muI_units u hsq pr reset

/-- Parameters of the Drucker-Prager law with stresses multiplied by `c` and densities by `d`. -/
def Spec.dpIn (c d : K) (pr : DPParams K) : DPParams K :=
  { pr with bulk := c * pr.bulk, shear := c * pr.shear, c0 := c * pr.c0, H := c * pr.H, rho0 := d * pr.rho0 }

theorem J2dev_units (c : K) (s : Mat3 K) : J2dev (c • s) = c ^ 2 * J2dev s := by
  unfold J2dev
  simp only [dcontr, Matrix.smul_apply, smul_eq_mul, Fin.sum_univ_three]
  ring

theorem dpTrial_units {fn : MathFns K} (hsq : SqrtHom fn) {c d t : K} (hc : 0 < c) (ht : 0 < t) (pr : DPParams K) (L epsE : Mat3 K) (epsP p0 dt : K)
    (hJ : 1 / 10 ^ 12 ≤ J2dev (dpTrial fn pr L epsE epsP p0 dt).sTr) (hJc : 1 / 10 ^ 12 ≤ c ^ 2 * J2dev (dpTrial fn pr L epsE epsP p0 dt).sTr) :
    dpTrial fn (dpIn c d pr) ((1 / t) • L) epsE epsP (c * p0) (t * dt) =
      { epsETr := (dpTrial fn pr L epsE epsP p0 dt).epsETr
        pTr := c * (dpTrial fn pr L epsE epsP p0 dt).pTr
        sTr := c • (dpTrial fn pr L epsE epsP p0 dt).sTr
        sqrtJ2 := c * (dpTrial fn pr L epsE epsP p0 dt).sqrtJ2
        yf := c * (dpTrial fn pr L epsE epsP p0 dt).yf } := by
  have he : (dpTrial fn (dpIn c d pr) ((1 / t) • L) epsE epsP (c * p0) (t * dt)).epsETr = (dpTrial fn pr L epsE epsP p0 dt).epsETr := by
    have ht' := ht.ne'
    simp only [dpTrial]
    unfold jaumann symTensor spinTensor
    ext i j
    simp only [Matrix.add_apply, Matrix.sub_apply, Matrix.smul_apply, Matrix.transpose_apply, Matrix.mul_apply, smul_eq_mul, Fin.sum_univ_three]
    field_simp
  have hs : (dpTrial fn (dpIn c d pr) ((1 / t) • L) epsE epsP (c * p0) (t * dt)).sTr = c • (dpTrial fn pr L epsE epsP p0 dt).sTr := by
    have : ∀ (q : DPParams K) (M e : Mat3 K) (a b r : K), (dpTrial fn q M e a b r).sTr =
        (2 * q.shear) • devStrainV (dpTrial fn q M e a b r).epsETr (volStrain (dpTrial fn q M e a b r).epsETr) := fun _ _ _ _ _ _ => rfl
    rw [this, this, he, smul_smul]
    congr 1
    simp only [dpIn]; ring
  have hp : (dpTrial fn (dpIn c d pr) ((1 / t) • L) epsE epsP (c * p0) (t * dt)).pTr = c * (dpTrial fn pr L epsE epsP p0 dt).pTr := by
    have : ∀ (q : DPParams K) (M e : Mat3 K) (a b r : K), (dpTrial fn q M e a b r).pTr =
        q.bulk * volStrain (dpTrial fn q M e a b r).epsETr + b := fun _ _ _ _ _ _ => rfl
    rw [this, this, he]
    simp only [dpIn]; ring
  have hq : (dpTrial fn (dpIn c d pr) ((1 / t) • L) epsE epsP (c * p0) (t * dt)).sqrtJ2 = c * (dpTrial fn pr L epsE epsP p0 dt).sqrtJ2 := by
    have : ∀ (q : DPParams K) (M e : Mat3 K) (a b r : K), (dpTrial fn q M e a b r).sqrtJ2 =
        fn.sqrt (max (J2dev (dpTrial fn q M e a b r).sTr) (1 / 10 ^ 12)) := fun _ _ _ _ _ _ => rfl
    rw [this, this, hs, J2dev_units, max_eq_left hJ, max_eq_left hJc, hsq _ _ hc]
  have hy : (dpTrial fn (dpIn c d pr) ((1 / t) • L) epsE epsP (c * p0) (t * dt)).yf = c * (dpTrial fn pr L epsE epsP p0 dt).yf := by
    have : ∀ (q : DPParams K) (M e : Mat3 K) (a b r : K), (dpTrial fn q M e a b r).yf =
        (dpTrial fn q M e a b r).sqrtJ2 - q.mu1 * (dpTrial fn q M e a b r).pTr - q.mu2 * (q.c0 + q.H * a) := fun _ _ _ _ _ _ => rfl
    rw [this, this, hq, hp]
    simp only [dpIn]; ring
  rw [← he, ← hs, ← hp, ← hq, ← hy]

/-- **C120.** Drucker-Prager: multiplying all stresses by `c` and all times by `t` multiplies the stress of a step by `c` and leaves the strains,
as long as neither the floor of `1e-12` under the second invariant nor the one under the hardening denominator of the apex is met in either
system of units. -/
theorem dp_units_partial {fn : MathFns K} (hsq : SqrtHom fn) {c d t : K} (hc : 0 < c) (hd : 0 < d) (ht : 0 < t) (pr : DPParams K)
    (L epsE : Mat3 K) (epsP p0 rho dt : K) (hshear : 0 < pr.shear)
    (hJ : 1 / 10 ^ 12 ≤ J2dev (dpTrial fn pr L epsE epsP p0 dt).sTr) (hJc : 1 / 10 ^ 12 ≤ c ^ 2 * J2dev (dpTrial fn pr L epsE epsP p0 dt).sTr)
    (hA : 1 / 10 ^ 12 ≤ pr.bulk * pr.mu1 - pr.H * pr.mu2 * (pr.mu2 / max pr.mu1 (1 / 10 ^ 8)))
    (hAc : 1 / 10 ^ 12 ≤ c * (pr.bulk * pr.mu1 - pr.H * pr.mu2 * (pr.mu2 / max pr.mu1 (1 / 10 ^ 8)))) :
    dpUpdate fn (dpIn c d pr) ((1 / t) • L) epsE epsP (c * p0) (d * rho) (t * dt) =
      { stress := c • (dpUpdate fn pr L epsE epsP p0 rho dt).stress
        epsE := (dpUpdate fn pr L epsE epsP p0 rho dt).epsE
        epsP := (dpUpdate fn pr L epsE epsP p0 rho dt).epsP } := by
  have hT := dpTrial_units hsq (d := d) hc ht pr L epsE epsP p0 dt hJ hJc
  have hc' := hc.ne'
  unfold dpUpdate
  simp only [hT]
  generalize dpTrial fn pr L epsE epsP p0 dt = tr
  have hrho : (d * rho ≥ (dpIn c d pr).rho0) ↔ rho ≥ pr.rho0 := by
    show d * pr.rho0 ≤ d * rho ↔ pr.rho0 ≤ rho
    exact mul_le_mul_iff_right₀ hd
  have hyf : (c * tr.yf > 0) ↔ tr.yf > 0 := by
    show 0 < c * tr.yf ↔ 0 < tr.yf
    exact mul_pos_iff_of_pos_left hc
  set tr' : DPTrial K := { epsETr := tr.epsETr, pTr := c * tr.pTr, sTr := c • tr.sTr, sqrtJ2 := c * tr.sqrtJ2, yf := c * tr.yf } with htr'
  have hm : dpMulti (dpIn c d pr) tr' = dpMulti pr tr := by
    unfold dpMulti
    simp only [dpIn, htr']
    rw [show c * pr.shear + c * pr.bulk * pr.mu1 * pr.mu1Hat + c * pr.H * pr.mu2 * pr.mu2 =
      c * (pr.shear + pr.bulk * pr.mu1 * pr.mu1Hat + pr.H * pr.mu2 * pr.mu2) by ring, mul_div_mul_left _ _ hc']
  have happ : (c * tr.sqrtJ2 - (dpIn c d pr).shear * dpMulti pr tr < 0) ↔ tr.sqrtJ2 - pr.shear * dpMulti pr tr < 0 := by
    rw [show c * tr.sqrtJ2 - (dpIn c d pr).shear * dpMulti pr tr = c * (tr.sqrtJ2 - pr.shear * dpMulti pr tr) by simp only [dpIn]; ring]
    constructor
    · intro h; exact (pos_iff_neg_of_mul_neg h).mp hc
    · intro h; exact mul_neg_of_pos_of_neg hc h
  by_cases h1 : rho ≥ pr.rho0
  · rw [if_pos (hrho.mpr h1), if_pos h1]
    by_cases h2 : tr.yf > 0
    · rw [if_pos (hyf.mpr h2), if_pos h2, hm]
      by_cases h3 : tr.sqrtJ2 - pr.shear * dpMulti pr tr < 0
      · rw [if_pos (happ.mpr h3), if_pos h3]
        have hden : max ((dpIn c d pr).bulk * (dpIn c d pr).mu1 - (dpIn c d pr).H * (dpIn c d pr).mu2 * ((dpIn c d pr).mu2 / max (dpIn c d pr).mu1
            (1 / 10 ^ 8))) (1 / 10 ^ 12) = c * max (pr.bulk * pr.mu1 - pr.H * pr.mu2 * (pr.mu2 / max pr.mu1 (1 / 10 ^ 8))) (1 / 10 ^ 12) := by
          rw [max_eq_left hA, max_eq_left (by simpa only [dpIn, mul_sub, mul_assoc] using hAc)]
          simp only [dpIn]; ring
        have hnum : (dpIn c d pr).mu1 * tr'.pTr + (dpIn c d pr).mu2 * ((dpIn c d pr).c0 + (dpIn c d pr).H * epsP) =
            c * (pr.mu1 * tr.pTr + pr.mu2 * (pr.c0 + pr.H * epsP)) := by simp only [dpIn, htr']; ring
        simp only [dpApex, hden, hnum]
        rw [mul_div_mul_left _ _ hc']
        generalize (pr.mu1 * tr.pTr + pr.mu2 * (pr.c0 + pr.H * epsP)) /
          max (pr.bulk * pr.mu1 - pr.H * pr.mu2 * (pr.mu2 / max pr.mu1 (1 / 10 ^ 8))) (1 / 10 ^ 12) = dv
        simp only [dpIn, htr', DPResult.mk.injEq, isoT, smul_smul]
        refine ⟨?_, ?_, trivial⟩
        · congr 1; ring
        · congr 2; rw [show c * tr.pTr - c * pr.bulk * dv - c * p0 = c * (tr.pTr - pr.bulk * dv - p0) by ring, mul_div_mul_left _ _ hc']
      · rw [if_neg (mt happ.mp h3), if_neg h3]
        simp only [dpCone, hm]
        generalize dpMulti pr tr = pm
        simp only [dpIn, htr', DPResult.mk.injEq, isoT, and_true]
        have hr : c * pr.shear * pm / (c * tr.sqrtJ2) = pr.shear * pm / tr.sqrtJ2 := by rw [mul_assoc, mul_div_mul_left _ _ hc']
        rw [hr]
        refine ⟨?_, ?_⟩
        · rw [smul_add, smul_smul, smul_smul, smul_smul]
          congr 2 <;> ring
        · rw [show c * tr.pTr - c * pr.bulk * pm * pr.mu1Hat - c * p0 = c * (tr.pTr - pr.bulk * pm * pr.mu1Hat - p0) by ring,
            mul_div_mul_left _ _ hc', smul_smul, smul_smul, smul_smul]
          congr 2
          field_simp
    · rw [if_neg (mt hyf.mp h2), if_neg h2]
      simp only [dpElastic, htr', isoT, smul_add, smul_smul]
  · rw [if_neg (mt hrho.mp h1), if_neg h1]
    simp

end

section
variable {K : Type*} [Field K] [LinearOrder K] [IsStrictOrderedRing K] {dim : ℕ}

/-- Parameters of the Cam-Clay law with stresses multiplied by `c` and densities by `d`. -/
def Spec.mccIn (c d : K) (pr : MCCParams K) : MCCParams K :=
  { pr with pRef := c * pr.pRef, KMin := pr.KMin.map (c * ·), KMax := pr.KMax.map (c * ·), pMin := c * pr.pMin, rhoP := d * pr.rhoP }

theorem clipOpt_units {c : K} (hc : 0 < c) (lo hi : Option K) (x : K) :
    clipOpt (lo.map (c * ·)) (hi.map (c * ·)) (c * x) = c * clipOpt lo hi x := by
  unfold clipOpt
  cases lo <;> cases hi <;> simp only [Option.map, mul_min_of_nonneg _ _ hc.le, mul_max_of_nonneg _ _ hc.le]

theorem jaumann_units {t : K} (ht : 0 < t) (c : K) (σ L : Mat3 K) (dt : K) :
    jaumann (c • σ) (spinTensor ((1 / t) • L)) (t * dt) = c • jaumann σ (spinTensor L) dt := by
  have ht' := ht.ne'
  unfold jaumann spinTensor
  ext i j
  simp only [Matrix.add_apply, Matrix.sub_apply, Matrix.smul_apply, Matrix.transpose_apply, Matrix.mul_apply, smul_eq_mul, Fin.sum_univ_three]
  field_simp

theorem increment_units {t : K} (ht : 0 < t) (L : Mat3 K) (dt : K) : (t * dt) • symTensor ((1 / t) • L) = dt • symTensor L := by
  have ht' := ht.ne'
  unfold symTensor
  ext i j
  simp only [Matrix.add_apply, Matrix.smul_apply, Matrix.transpose_apply, smul_eq_mul]
  field_simp

theorem mccTrial_units {fn : MathFns K} (hsq : SqrtHom fn) {c d t : K} (hc : 0 < c) (ht : 0 < t) (pr : MCCParams K) (L epsE σ : Mat3 K)
    (pc : K) (σref : Mat3 K) (dt : K) (hp : 1 ≤ max (mccTrial fn pr L epsE σ pc σref dt).pTr pr.pMin)
    (hpc : 1 ≤ c * max (mccTrial fn pr L epsE σ pc σref dt).pTr pr.pMin) :
    let T := mccTrial fn pr L epsE σ pc σref dt
    let T' := mccTrial fn (mccIn c d pr) ((1 / t) • L) epsE (c • σ) (c * pc) (c • σref) (t * dt)
    T'.deps = T.deps ∧ T'.epsERot = T.epsERot ∧ T'.pTr = c * T.pTr ∧ T'.sTr = c • T.sTr ∧ T'.yf = c ^ 2 * T.yf := by
  intro T T'
  have hσ := jaumann_units ht c σ L dt
  have hinc := increment_units ht L dt
  have hdeps : T'.deps = T.deps := hinc
  have hE : T'.epsERot = T.epsERot := by
    have := jaumann_units ht 1 epsE L dt
    rwa [one_smul, one_smul] at this
  have hpp : T'.pPrev = c * T.pPrev := by
    show max (pressureOf (jaumann (c • σ) _ _)) (c * pr.pMin) = c * max (pressureOf (jaumann σ _ _)) pr.pMin
    rw [hσ, mul_max_of_nonneg _ _ hc.le]
    unfold pressureOf
    rw [Matrix.trace_smul, smul_eq_mul]
    congr 1; ring
  have hpt : T'.pTr = c * T.pTr := by
    show mccPressure fn (volStrain T'.deps) pr.kap T'.pPrev = c * mccPressure fn (volStrain T.deps) pr.kap T.pPrev
    rw [hdeps, hpp]
    unfold mccPressure
    ring
  have hK : T'.KTr = c * T.KTr := by
    show mccK pr.kap (max T'.pTr (c * pr.pMin)) (pr.KMin.map (c * ·)) (pr.KMax.map (c * ·)) = c * mccK pr.kap (max T.pTr pr.pMin) pr.KMin pr.KMax
    rw [hpt, ← mul_max_of_nonneg _ _ hc.le]
    unfold mccK
    rw [max_eq_left hp, max_eq_left hpc, ← clipOpt_units hc]
    congr 1; ring
  have hs : T'.sTr = c • T.sTr := by
    show mccS (devStrainV T'.deps (volStrain T'.deps)) (mccG pr.nu T'.KTr) (devStressP (jaumann (c • σ) _ _) T'.pPrev) =
      c • mccS (devStrainV T.deps (volStrain T.deps)) (mccG pr.nu T.KTr) (devStressP (jaumann σ _ _) T.pPrev)
    rw [hdeps, hσ, hpp, hK]
    unfold mccS devStressP mccG
    simp only [smul_add, smul_sub, smul_smul]
    congr 2
    ring
  refine ⟨hdeps, hE, hpt, hs, ?_⟩
  show mccYield T'.pTr (c * pc) (qVmDev fn T'.sTr) pr.M = c ^ 2 * mccYield T.pTr pc (qVmDev fn T.sTr) pr.M
  have hq : qVmDev fn (c • T.sTr) = c * qVmDev fn T.sTr := by
    unfold qVmDev
    rw [J2dev_units, ← hsq _ _ hc]
    congr 1; ring
  rw [hpt, hs, hq]
  unfold mccYield
  ring

/-- **C120.** Modified Cam-Clay inside its yield surface: the same, as long as the pressure is at least one (pascal, or whatever the unit is) in
both systems: the stiffness is computed from the pressure or one, whichever is larger. Not proved: the Newton return, whose floors (`1e-6`,
`1`) and iterates are not homogeneous either. -/
theorem mcc_units_partial {fn : MathFns K} (hsq : SqrtHom fn) (ops : NewtonOps K) {c d t : K} (hc : 0 < c) (ht : 0 < t) (pr : MCCParams K)
    (L epsE σ : Mat3 K) (pc : K) (σref : Mat3 K) (v dt : K) (hp : 1 ≤ max (mccTrial fn pr L epsE σ pc σref dt).pTr pr.pMin)
    (hpc : 1 ≤ c * max (mccTrial fn pr L epsE σ pc σref dt).pTr pr.pMin) (hy : (mccTrial fn pr L epsE σ pc σref dt).yf ≤ 0) :
    mccUpdate fn ops (mccIn c d pr) ((1 / t) • L) epsE (c • σ) (c * pc) (c • σref) v (t * dt) =
      { stress := c • (mccUpdate fn ops pr L epsE σ pc σref v dt).stress
        epsE := (mccUpdate fn ops pr L epsE σ pc σref v dt).epsE
        pc := c * (mccUpdate fn ops pr L epsE σ pc σref v dt).pc } := by
  obtain ⟨h1, h2, h3, h4, h5⟩ := mccTrial_units hsq (d := d) hc ht pr L epsE σ pc σref dt hp hpc
  unfold mccUpdate
  have hN : (mccIn c d pr).N = pr.N := rfl
  simp only [hN]
  have hy' : ¬ (mccTrial fn (mccIn c d pr) ((1 / t) • L) epsE (c • σ) (c * pc) (c • σref) (t * dt)).yf > 0 := by
    rw [h5]
    exact not_lt.mpr (mul_nonpos_of_nonneg_of_nonpos (by positivity) hy)
  rw [if_neg hy', if_neg (not_lt.mpr hy)]
  split_ifs
  · simp only [mccElastic, h1, h2, h3, h4, isoT, smul_add, smul_smul]
  · simp only [h2, smul_zero]

/-- A grid created in the new units is the old grid converted. -/
theorem gridCreate_units [FloorRing K] (u : UnitSystem K) (origin stop : Fin dim → K) {h : K} (hh : h ≠ 0) (padding : ℕ) :
    GridDomain.create (fun a => u.len * origin a) (fun a => u.len * stop a) (u.len * h) padding = u.domain (GridDomain.create origin stop h padding) := by
  have hl := u.len_pos.ne'
  simp only [GridDomain.create, Spec.UnitSystem.domain, GridDomain.mk.injEq, true_and]
  refine ⟨?_, ?_, ?_, ?_⟩
  · funext a; ring
  · funext a; ring
  · funext a
    congr 2
    rw [show u.len * stop a + padding * (u.len * h) - (u.len * origin a - padding * (u.len * h)) =
      u.len * (stop a + padding * h - (origin a - padding * h)) by ring, mul_div_mul_left _ _ hl]
  · field_simp

end

/-! ### Examples -/

/-- Millimetres, minutes and tonnes instead of metres, seconds and kilograms. -/
def exUnits : UnitSystem ℚ := { len := 1000, time := 1 / 60, mass := 1 / 1000, len_pos := by norm_num, time_pos := by norm_num, mass_pos := by norm_num }

/-- The elastic body of the examples set up in the new units. -/
def exSolverIn (u : UnitSystem ℚ) (ker : Kernel) : Solver exSz ℚ 2 Unit (LawState ℚ) (ForceState ℚ 2) :=
  { exSolver ker false with
    domains := fun _ => GridDomain.create (fun _ => u.len * 0) (fun _ => u.len * 1) (u.len * (1 / 2)) 2
    laws := fun _ => elasticLaw (u.stress 2 * 1000) (1 / 4) false }

theorem exSolverIn_units (u : UnitSystem ℚ) (ker : Kernel) : u.SolverIn (fun _ => id) (exSolver ker false) (exSolverIn u ker) where
  alpha := rfl
  domains g := gridCreate_units u (fun _ => 0) (fun _ => 1) (by norm_num) 2
  couplings := rfl
  laws c := elastic_law_units u 1000 (1 / 4) false
  forces := .cons (.gravity _ _ _ _) .nil
  sdfs d := d.elim0

set_option maxRecDepth 100000 in
/-- A step in millimetres, minutes and tonnes; it succeeds, and no nodal mass falls under the cutoffs. -/
example : uslCall ratFns (exSolverIn exUnits .linear) (exUnits.state (fun _ => id) exState) =
    (uslCall ratFns (exSolver .linear false) exState).map (exUnits.state fun _ => id) ∧
    (probe (uslCall ratFns (exSolver .linear false) exState) 0 (fun s => s.position 0 0)).isSome = true := by
  refine ⟨step_units_partial (exSolverIn_units exUnits .linear) exState ⟨by simp [exSolver], fun g j => ?_⟩, by decide +kernel⟩
  refine Weighed.of_gap ?_
  have hreg := (exRegular (cut := 1 / 10 ^ 9) (reset := false) (w := exState.world) (by decide +kernel)).cutoff g j
  have h0 := gridSum_mass_nonneg (exSolver .linear false) exState.world (fun p s hb q => by
    have h0 : exState.world.bodies p = .deformable exBody := rfl
    rw [h0] at hb
    cases hb
    fin_cases q <;> simp [exBody, MPState.create]) g j
  rcases h0.eq_or_lt with h | h
  · exact .inl h.symm
  · have h1 := hreg h
    refine .inr ⟨lt_trans (by norm_num) h1, ?_⟩
    have : exUnits.mass = 1 / 1000 := rfl
    rw [this]
    linarith

/-- Metres and seconds may be replaced freely, for any number of steps. -/
example (u : UnitSystem ℚ) (hu : u.mass = 1) (n : ℕ) : runSteps (uslCall ratFns (exSolverIn u .cubic)) n (u.state (fun _ => id) exState) =
    (runSteps (uslCall ratFns (exSolver .cubic false)) n exState).map (u.state fun _ => id) := by
  refine run_length_time_units_partial hu (exSolverIn_units u .cubic) (fun _ => ?_) (by simp [exSolver]) n exState ?_
  · exact LibLaw.onlyStress (.elastic _ _ _)
  · intro p s hb q
    have h0 : exState.world.bodies p = .deformable exBody := rfl
    rw [h0] at hb
    cases hb
    fin_cases q <;> simp [exBody, MPState.create]

/-! ### Where units matter -/

/-- A body a hundred thousand billion times lighter in the new unit of mass. -/
def lightUnits : UnitSystem ℚ := { len := 1, time := 1, mass := 1 / 10 ^ 14, len_pos := by norm_num, time_pos := by norm_num, mass_pos := by norm_num }

set_option maxRecDepth 100000 in
/-- The unit of mass matters: the cutoffs `1e-12` and `1e-14` are plain numbers. The same body with its mass counted in a large enough unit
no longer moves. -/
theorem mass_unit_counterexample : uslCall ratFns (exSolverIn lightUnits .linear) (lightUnits.state (fun _ => id) exState) ≠
    (uslCall ratFns (exSolver .linear false) exState).map (lightUnits.state fun _ => id) := by
  intro h
  have h1 := congrArg (fun r => probe r 0 (fun s => s.position 0 0)) h
  have h2 : (probe (uslCall ratFns (exSolverIn lightUnits .linear) (lightUnits.state (fun _ => id) exState)) 0 (fun s => s.position 0 0) ==
    probe ((uslCall ratFns (exSolver .linear false) exState).map (lightUnits.state fun _ => id)) 0 (fun s => s.position 0 0)) = false := by
    decide +kernel
  rw [beq_eq_false_iff_ne] at h2
  exact h2 h1

theorem friction_slide {a c mu : ℝ} (ha : 0 ≤ a) (hc : 0 ≤ c) : frictionalContact Real.sqrt ![a, -c] 0 ![0, 1] (fun _ => 0) mu 1 0 0 0 =
    a * (1 - (if a > 1 / 10 ^ 12 then min a (mu * c) else 0) / (a + 1 / 10 ^ 12)) := by
  have hs : Real.sqrt (a * a) = a := Real.sqrt_mul_self ha
  simp [frictionalContact, dotv, Fin.sum_univ_two, hs, max_eq_right hc]

/-- The unit of velocity matters to friction: below `1e-12` there is none. A point sliding along a wall with speed `1e-12` keeps it; counted in
units a tenth as large, it is slowed down. -/
theorem friction_unit_counterexample :
    frictionalContact Real.sqrt (fun a => 10 * (![1 / 10 ^ 12, -1] : Fin 2 → ℝ) a) 0 ![0, 1] (fun _ => 0) 1 1 0 0 ≠
      fun a => 10 * frictionalContact Real.sqrt (![1 / 10 ^ 12, -1] : Fin 2 → ℝ) 0 ![0, 1] (fun _ => 0) 1 1 0 0 a := by
  intro h
  have h0 := congrFun h 0
  have e : (fun a => 10 * (![1 / 10 ^ 12, -1] : Fin 2 → ℝ) a) = ![1 / 10 ^ 11, -10] := by
    funext a; fin_cases a <;> norm_num
  rw [e, friction_slide (by positivity) (by norm_num)] at h0
  rw [show (![1 / 10 ^ 12, -1] : Fin 2 → ℝ) = ![1 / 10 ^ 12, -(1 : ℝ)] from rfl, friction_slide (by positivity) (by norm_num)] at h0
  norm_num at h0

/-- A Drucker-Prager soil without cohesion, friction 1/2. -/
noncomputable def exDPUnits : DPParams ℝ := { bulk := 1, shear := 1, mu1 := 1 / 2, mu2 := 0, mu1Hat := 1, c0 := 0, H := 0, rho0 := 0 }

/-- The unit of stress matters to Drucker-Prager: the second invariant of the stress counts as at least `1e-12`. An unstrained point under a
pressure of `1e-6` is taken to flow; counted in units a tenth as large, it rests. -/
theorem dp_unit_counterexample :
    (dpUpdate realFns (dpIn 10 1 exDPUnits) 0 0 0 (10 * (1 / 10 ^ 6)) 1 1).stress ≠
      (10 : ℝ) • (dpUpdate realFns exDPUnits 0 0 0 (1 / 10 ^ 6) 1 1).stress := by
  have hs : Real.sqrt (1 / 10 ^ 12) = 1 / 10 ^ 6 := by
    rw [show (1 / 10 ^ 12 : ℝ) = (1 / 10 ^ 6) ^ 2 by norm_num, Real.sqrt_sq (by positivity)]
  have ht : ∀ (c p0 : ℝ), dpTrial realFns (dpIn c 1 exDPUnits) 0 0 0 p0 1 =
      { epsETr := 0, pTr := p0, sTr := 0, sqrtJ2 := 1 / 10 ^ 6, yf := 1 / 10 ^ 6 - 1 / 2 * p0 } := by
    intro c p0
    have hz : jaumann (0 : Mat3 ℝ) (spinTensor 0) 1 + (1 : ℝ) • symTensor 0 = 0 := by
      simp [jaumann, spinTensor, symTensor]
    have hJ : J2dev (0 : Mat3 ℝ) = 0 := by simp [J2dev, dcontr]
    unfold dpTrial
    simp only [hz]
    have hd : devStrainV (0 : Mat3 ℝ) (volStrain 0) = 0 := by simp [devStrainV, volStrain]
    have hv : volStrain (0 : Mat3 ℝ) = 0 := by simp [volStrain]
    rw [hd, hv, smul_zero, hJ, max_eq_right (by positivity)]
    simp only [realFns_sqrt, hs, dpIn, exDPUnits]
    norm_num
  have h1 : (dpUpdate realFns (dpIn 10 1 exDPUnits) 0 0 0 (10 * (1 / 10 ^ 6)) 1 1).stress 0 0 = 1 / 10 ^ 5 := by
    unfold dpUpdate
    rw [ht]
    norm_num [dpIn, exDPUnits, dpElastic, isoT]
  have e1 : dpIn 1 1 exDPUnits = exDPUnits := by simp [dpIn, exDPUnits]
  have h2 : (dpUpdate realFns exDPUnits 0 0 0 (1 / 10 ^ 6) 1 1).stress 0 0 < 1 / 10 ^ 6 := by
    rw [← e1]
    unfold dpUpdate
    rw [ht]
    norm_num [dpIn, exDPUnits, dpCone, dpApex, dpMulti, isoT]
  intro h
  have h3 := congrFun (congrFun h 0) 0
  rw [h1, Matrix.smul_apply, smul_eq_mul] at h3
  norm_num at h2 h3
  linarith

/-- A Cam-Clay soil; no bounds on its stiffness. -/
noncomputable def exMCCUnits : MCCParams ℝ :=
  { nu := 0, M := 1, lam := 2, kap := 1, N := 2, pRef := 1, KMin := none, KMax := none, pMin := 1 / 10, rhoP := 1 }

/-- Shearing in the plane. -/
noncomputable def unitShear : Mat3 ℝ := !![0, 2 / 3, 0; 2 / 3, 0, 0; 0, 0, 0]

/-- The unit of stress matters to Cam-Clay: pressures below one count as one in its stiffness. Sheared at a pressure of 1/2 the stress grows as
much as at a pressure of 1. -/
theorem mcc_unit_counterexample (ops : NewtonOps ℝ) :
    (mccUpdate realFns ops (mccIn 2 1 exMCCUnits) unitShear 0 ((2 : ℝ) • ((1 / 2 : ℝ) • (1 : Mat3 ℝ))) (2 * 100) ((2 : ℝ) • 0) 1 1).stress ≠
      (2 : ℝ) • (mccUpdate realFns ops exMCCUnits unitShear 0 ((1 / 2 : ℝ) • (1 : Mat3 ℝ)) 100 0 1 1).stress := by
  have hsh : spinTensor unitShear = 0 := by
    ext i j; fin_cases i <;> fin_cases j <;> simp [spinTensor, unitShear]
  have hsy : (1 : ℝ) • symTensor unitShear = unitShear := by
    ext i j; fin_cases i <;> fin_cases j <;> simp [symTensor, unitShear] <;> norm_num
  have hv : volStrain unitShear = 0 := by simp [volStrain, unitShear, Matrix.trace, Fin.sum_univ_three]
  have key : ∀ (c p pc : ℝ) (r : Mat3 ℝ), 1 / 10 * c ≤ p → p ≤ 1 → 0 < p → 13 ≤ pc * p →
      (mccUpdate realFns ops (mccIn c 1 exMCCUnits) unitShear 0 (p • (1 : Mat3 ℝ)) pc r 1 1).stress 0 1 = 2 := by
    intro c p pc r h1 h2 h3 h4
    have hj : ∀ T : Mat3 ℝ, jaumann T (spinTensor unitShear) 1 = T := fun T => by simp [jaumann, hsh]
    have hpr : pressureOf (p • (1 : Mat3 ℝ)) = p := by
      simp [pressureOf, Matrix.trace_smul]; ring
    have hm : max p (c * (1 / 10)) = p := max_eq_left (by linarith)
    have hK : mccK (1 : ℝ) p none none = 1 := by
      simp [mccK, clipOpt, max_eq_right h2]
    have hG : mccG (0 : ℝ) 1 = 3 / 2 := by norm_num [mccG]
    have hdev : devStressP (p • (1 : Mat3 ℝ)) p = 0 := by simp [devStressP]
    have hde : devStrainV unitShear 0 = unitShear := by simp [devStrainV]
    have hsv : mccS unitShear (3 / 2) 0 = (3 : ℝ) • unitShear := by simp only [mccS, add_zero]; norm_num
    have hpT : mccPressure realFns 0 1 p = p := by simp [mccPressure]
    have hq : qVmDev realFns ((3 : ℝ) • unitShear) * qVmDev realFns ((3 : ℝ) • unitShear) = 12 := by
      have hJ : 3 * J2dev ((3 : ℝ) • unitShear) = 12 := by
        simp [J2dev, dcontr, Fin.sum_univ_three, unitShear]; norm_num
      unfold qVmDev
      rw [hJ]
      exact Real.mul_self_sqrt (by norm_num)
    have hT : mccTrial realFns (mccIn c 1 exMCCUnits) unitShear 0 (p • (1 : Mat3 ℝ)) pc r 1 =
        { deps := unitShear, epsERot := 0, p0 := pressureOf r, s0 := devStressP r (pressureOf r), pPrev := p, deV := 0, pTr := p, KTr := 1,
          sTr := (3 : ℝ) • unitShear, qTr := qVmDev realFns ((3 : ℝ) • unitShear),
          yf := mccYield p pc (qVmDev realFns ((3 : ℝ) • unitShear)) 1 } := by
      simp only [mccTrial, mccIn, exMCCUnits, hj, hsy, hpr, hm, hv, hpT, Option.map, hK, hG, hdev, hde, hsv]
    have hy : ¬ mccYield p pc (qVmDev realFns ((3 : ℝ) • unitShear)) 1 > 0 := by
      unfold mccYield
      rw [hq]
      nlinarith
    unfold mccUpdate
    rw [hT]
    have hN : (1 : ℝ) ≤ (mccIn c 1 exMCCUnits).N * (999999 / 1000000) := by norm_num [mccIn, exMCCUnits]
    simp only [if_pos hN, if_neg hy, mccElastic]
    norm_num [isoT, unitShear]
  intro h
  have h3 := congrFun (congrFun h 0) 1
  have e1 : mccIn 1 1 exMCCUnits = exMCCUnits := by simp [mccIn, exMCCUnits]
  rw [smul_smul, key 2 (2 * (1 / 2)) _ _ (by norm_num) (by norm_num) (by norm_num) (by norm_num), Matrix.smul_apply] at h3
  have h4 := key 1 (1 / 2) 100 0 (by norm_num) (by norm_num) (by norm_num) (by norm_num)
  rw [e1] at h4
  rw [h4] at h3
  norm_num at h3

/-- `dp_units_partial` on the soil above, sheared: the point flows, in both units. -/
example : dpUpdate realFns (dpIn 10 2 exDPUnits) ((1 / 60 : ℝ) • unitShear) 0 0 (10 * 1) (2 * 1) (60 * 1) =
      { stress := (10 : ℝ) • (dpUpdate realFns exDPUnits unitShear 0 0 1 1 1).stress
        epsE := (dpUpdate realFns exDPUnits unitShear 0 0 1 1 1).epsE
        epsP := (dpUpdate realFns exDPUnits unitShear 0 0 1 1 1).epsP } ∧ 0 < (dpTrial realFns exDPUnits unitShear 0 0 1 1).yf := by
  have hs : (dpTrial realFns exDPUnits unitShear 0 0 1 1).sTr = (2 : ℝ) • unitShear := by
    ext i j
    fin_cases i <;> fin_cases j <;>
      simp [dpTrial, exDPUnits, unitShear, jaumann, symTensor, spinTensor, devStrainV, volStrain, Matrix.trace, Fin.sum_univ_three] <;> norm_num
  have hJ : J2dev ((2 : ℝ) • unitShear) = 16 / 9 := by
    simp [J2dev, dcontr, Fin.sum_univ_three, unitShear]; norm_num
  refine ⟨dp_units_partial sqrtHom_real (by norm_num) (by norm_num) (by norm_num) _ _ _ _ _ _ _ (by norm_num [exDPUnits]) ?_ ?_ ?_ ?_, ?_⟩
  · rw [hs, hJ]; norm_num
  · rw [hs, hJ]; norm_num
  · norm_num [exDPUnits]
  · norm_num [exDPUnits]
  · have hp : (dpTrial realFns exDPUnits unitShear 0 0 1 1).pTr = 1 := by
      simp [dpTrial, exDPUnits, unitShear, jaumann, symTensor, spinTensor, volStrain, Matrix.trace, Fin.sum_univ_three]
    have hq : (dpTrial realFns exDPUnits unitShear 0 0 1 1).sqrtJ2 = 4 / 3 := by
      show Real.sqrt (max (J2dev (dpTrial realFns exDPUnits unitShear 0 0 1 1).sTr) (1 / 10 ^ 12)) = 4 / 3
      rw [hs, hJ, max_eq_left (by norm_num), show (16 / 9 : ℝ) = (4 / 3) ^ 2 by norm_num, Real.sqrt_sq (by norm_num)]
    show 0 < (dpTrial realFns exDPUnits unitShear 0 0 1 1).sqrtJ2 - exDPUnits.mu1 * (dpTrial realFns exDPUnits unitShear 0 0 1 1).pTr -
      exDPUnits.mu2 * (exDPUnits.c0 + exDPUnits.H * 0)
    rw [hp, hq]
    norm_num [exDPUnits]

/-- `mcc_units_partial` on the clay above at rest under a pressure of 5. -/
example (ops : NewtonOps ℝ) : mccUpdate realFns ops (mccIn 3 2 exMCCUnits) ((1 / 60 : ℝ) • 0) 0 ((3 : ℝ) • ((5 : ℝ) • (1 : Mat3 ℝ))) (3 * 100) ((3 : ℝ) • 0) 1 (60 * 1) =
      { stress := (3 : ℝ) • (mccUpdate realFns ops exMCCUnits 0 0 ((5 : ℝ) • (1 : Mat3 ℝ)) 100 0 1 1).stress
        epsE := (mccUpdate realFns ops exMCCUnits 0 0 ((5 : ℝ) • (1 : Mat3 ℝ)) 100 0 1 1).epsE
        pc := 3 * (mccUpdate realFns ops exMCCUnits 0 0 ((5 : ℝ) • (1 : Mat3 ℝ)) 100 0 1 1).pc } := by
  have hp : (mccTrial realFns exMCCUnits 0 0 ((5 : ℝ) • (1 : Mat3 ℝ)) 100 0 1).pTr = 5 := by
    simp [mccTrial, exMCCUnits, jaumann, symTensor, spinTensor, volStrain, pressureOf, mccPressure, Matrix.trace_smul]; norm_num
  have hs : (mccTrial realFns exMCCUnits 0 0 ((5 : ℝ) • (1 : Mat3 ℝ)) 100 0 1).sTr = 0 := by
    have h5 : max ((3 : ℝ)⁻¹ * (5 * 3)) 10⁻¹ = 5 := by norm_num
    simp [mccTrial, exMCCUnits, jaumann, symTensor, spinTensor, volStrain, devStrainV, devStressP, pressureOf, mccS, Matrix.trace_smul, h5]
  refine mcc_units_partial sqrtHom_real ops (by norm_num) (by norm_num) _ _ _ _ _ _ _ _ ?_ ?_ ?_
  · rw [hp]; norm_num [exMCCUnits]
  · rw [hp]; norm_num [exMCCUnits]
  · show mccYield (mccTrial realFns exMCCUnits 0 0 ((5 : ℝ) • (1 : Mat3 ℝ)) 100 0 1).pTr 100
      (qVmDev realFns (mccTrial realFns exMCCUnits 0 0 ((5 : ℝ) • (1 : Mat3 ℝ)) 100 0 1).sTr) exMCCUnits.M ≤ 0
    rw [hp, hs]
    have : qVmDev realFns (0 : Mat3 ℝ) = 0 := by simp [qVmDev, J2dev, dcontr]
    rw [this]
    norm_num [mccYield]

/-- Partial derivatives are a gradient that does not depend on the unit of length. -/
theorem gradHom_deriv {dim : ℕ} : GradHom (fun (φ : (Fin dim → ℝ) → ℝ) x a => deriv (fun s => φ (Function.update x a s)) (x a)) := by
  intro c φ ψ hc h x
  funext a
  have hc' := hc.ne'
  have e : (fun s => ψ (Function.update (fun b => c * x b) a s)) = fun s => c * (fun r => φ (Function.update x a r)) (c⁻¹ * s) := by
    funext s
    rw [← h]
    congr 1
    funext b
    by_cases hb : b = a
    · subst hb; simp [hc']
    · simp [hb]
  show deriv (fun s => ψ (Function.update (fun b => c * x b) a s)) (c * x a) = deriv (fun s => φ (Function.update x a s)) (x a)
  rw [e]
  have e2 := deriv_const_mul_field (𝕜 := ℝ) (x := c * x a) c (v := fun s => (fun r => φ (Function.update x a r)) (c⁻¹ * s))
  rw [e2, deriv_comp_mul_left c⁻¹ (fun r => φ (Function.update x a r)) (c * x a), smul_eq_mul, ← mul_assoc, mul_inv_cancel₀ hc', one_mul,
    ← mul_assoc, inv_mul_cancel₀ hc', one_mul]

/-- `planar_obstacle_units`: a disc of radius 2 and a half plane, both with friction. -/
example (u : UnitSystem ℝ) (mu : ℝ) :
    u.SdfIn (baseSdf realFns (fun (φ : (Fin 2 → ℝ) → ℝ) x a => deriv (fun s => φ (Function.update x a s)) (x a)) (sphereDist realFns 2) fun _ => mu)
      (baseSdf realFns (fun (φ : (Fin 2 → ℝ) → ℝ) x a => deriv (fun s => φ (Function.update x a s)) (x a)) (sphereDist realFns (u.len * 2)) fun _ => mu)
      u.sdf ∧
    u.SdfIn (baseSdf realFns (fun (φ : (Fin 2 → ℝ) → ℝ) x a => deriv (fun s => φ (Function.update x a s)) (x a)) (planeDist ![0, 1]) fun _ => mu)
      (baseSdf realFns (fun (φ : (Fin 2 → ℝ) → ℝ) x a => deriv (fun s => φ (Function.update x a s)) (x a)) (planeDist ![0, 1]) fun _ => mu) u.sdf :=
  ⟨planar_obstacle_units u realFns gradHom_deriv (fun x => sphereDist_units u sqrtHom_real 2 x) fun _ => rfl,
    planar_obstacle_units u realFns gradHom_deriv (fun x => planeDist_units u _ x) fun _ => rfl⟩

/-- `spatial_obstacle_units`: a turning half space with friction. -/
example (u : UnitSystem ℝ) (mu : ℝ) :
    u.SdfIn (baseSdf realFns (fun (φ : (Fin 3 → ℝ) → ℝ) x a => deriv (fun s => φ (Function.update x a s)) (x a)) (planeDist ![0, 1, 0]) fun _ => mu)
      (baseSdf realFns (fun (φ : (Fin 3 → ℝ) → ℝ) x a => deriv (fun s => φ (Function.update x a s)) (x a)) (planeDist ![0, 1, 0]) fun _ => mu) u.sdf :=
  spatial_obstacle_units u realFns gradHom_deriv (fun x => planeDist_units u _ x) fun _ => rfl

/-! ### ASFLIP -/

/-- Two points on a node of the grid, the second lighter and slower. -/
def asflipUnitState : SimState exSz ℚ 2 Unit (LawState ℚ) (ForceState ℚ 2) :=
  { exState with
    world := { bodies := fun _ => .deformable (MPState.create
                { position := ![![1 / 2, 1 / 2], ![1 / 2, 1 / 2]]
                  velocity := some ![![1 / 10, 0], ![0, 0]]
                  mass := some ![1, 3 / 10]
                  volume := some ![1 / 4, 1 / 4] })
               sdfs := Fin.elim0 }
    mech := { exState.mech with forces := [.gravity ![0, 0]] } }

/-- The unit of mass a billion times larger. -/
def gigaUnits : UnitSystem ℚ := { len := 1, time := 1, mass := 1 / 10 ^ 9, len_pos := by norm_num, time_pos := by norm_num, mass_pos := by norm_num }

set_option maxRecDepth 100000 in
/-- The unit of mass matters to ASFLIP even with its own cutoff converted and all nodal masses above the others: the number that decides how
much of the old velocity is kept compares the nodal masses with the mass of the point plus `1e-9`. -/
theorem aflip_mass_unit_counterexample :
    aflipCall ratFns { exAflip2 with cutoff := gigaUnits.mass * exAflip2.cutoff } (exSolverIn gigaUnits .linear)
        (gigaUnits.state (fun _ => id) asflipUnitState) ≠
      (aflipCall ratFns exAflip2 (exSolver .linear false) asflipUnitState).map (gigaUnits.state fun _ => id) := by
  intro h
  have h1 := congrArg (fun r => probe r 0 (fun s => s.velocity 0 0)) h
  have h2 : (probe (aflipCall ratFns { exAflip2 with cutoff := gigaUnits.mass * exAflip2.cutoff } (exSolverIn gigaUnits .linear)
        (gigaUnits.state (fun _ => id) asflipUnitState)) 0 (fun s => s.velocity 0 0) ==
      probe ((aflipCall ratFns exAflip2 (exSolver .linear false) asflipUnitState).map (gigaUnits.state fun _ => id)) 0
        (fun s => s.velocity 0 0)) = false := by
    decide +kernel
  rw [beq_eq_false_iff_ne] at h2
  exact h2 h1

set_option maxRecDepth 100000 in
/-- Both runs succeed. -/
example : (probe (aflipCall ratFns exAflip2 (exSolver .linear false) asflipUnitState) 0 (fun s => s.velocity 0 0)).isSome = true ∧
    (probe (aflipCall ratFns { exAflip2 with cutoff := gigaUnits.mass * exAflip2.cutoff } (exSolverIn gigaUnits .linear)
        (gigaUnits.state (fun _ => id) asflipUnitState)) 0 (fun s => s.velocity 0 0)).isSome = true := by
  constructor <;> decide +kernel

/-! ### Boxes and capsules -/

theorem safeNorm_gap {m : ℕ} (x : Fin m → ℝ) :
    Real.sqrt (∑ a, x a ^ 2) ≤ safeNorm realFns (1 / 10 ^ 12) x ∧
      safeNorm realFns (1 / 10 ^ 12) x ≤ Real.sqrt (∑ a, x a ^ 2) + 1 / 10 ^ 6 := by
  have h0 : 0 ≤ ∑ a, x a ^ 2 := Finset.sum_nonneg fun a _ => sq_nonneg _
  change _ ≤ Real.sqrt (∑ a, x a ^ 2 + 1 / 10 ^ 12) ∧ Real.sqrt (∑ a, x a ^ 2 + 1 / 10 ^ 12) ≤ _
  refine ⟨Real.sqrt_le_sqrt (by linarith), ?_⟩
  rw [Real.sqrt_le_left (by positivity)]
  have := Real.sq_sqrt h0
  have := Real.sqrt_nonneg (∑ a, x a ^ 2)
  nlinarith

/-- Converting the argument of `safe_norm` converts its value up to `1e-6` of the larger of both units. -/
theorem safeNorm_units {c : ℝ} (hc : 0 < c) {m : ℕ} (x : Fin m → ℝ) :
    |safeNorm realFns (1 / 10 ^ 12) (fun a => c * x a) - c * safeNorm realFns (1 / 10 ^ 12) x| ≤ max 1 c / 10 ^ 6 := by
  obtain ⟨a1, a2⟩ := safeNorm_gap x
  obtain ⟨b1, b2⟩ := safeNorm_gap fun a => c * x a
  have e : Real.sqrt (∑ a, (c * x a) ^ 2) = c * Real.sqrt (∑ a, x a ^ 2) := by
    rw [show ∑ a, (c * x a) ^ 2 = c ^ 2 * ∑ a, x a ^ 2 by rw [Finset.mul_sum]; exact Finset.sum_congr rfl fun a _ => by ring,
      Real.sqrt_mul (by positivity), Real.sqrt_sq hc.le]
  rw [e] at b1 b2
  have h1 := mul_le_mul_of_nonneg_left a1 hc.le
  have h2 := mul_le_mul_of_nonneg_left a2 hc.le
  have m1 : 1 / 10 ^ 6 ≤ max 1 c / 10 ^ 6 := by gcongr; exact le_max_left _ _
  have m2 : c * (1 / 10 ^ 6) ≤ max 1 c / 10 ^ 6 := by
    rw [mul_one_div]; gcongr; exact le_max_right _ _
  rw [abs_le]
  constructor <;> linarith

theorem maxv_units {c : ℝ} (hc : 0 < c) {m : ℕ} (f : Fin (m + 1) → ℝ) : maxv (fun a => c * f a) = c * maxv f := by
  unfold maxv
  apply le_antisymm
  · exact Finset.sup'_le _ _ fun a ha => mul_le_mul_of_nonneg_left (Finset.le_sup' f ha) hc.le
  · obtain ⟨a, ha, e⟩ := Finset.exists_mem_eq_sup' (⟨0, Finset.mem_univ 0⟩ : (Finset.univ : Finset (Fin (m + 1))).Nonempty) f
    rw [e]
    exact Finset.le_sup' (fun a => c * f a) ha

/-- **C120**, boxes: the distance to a box in other units of length is the converted distance up to `1e-6` of the larger unit. -/
theorem box_units_partial {c : ℝ} (hc : 0 < c) {m : ℕ} (half x : Fin (m + 1) → ℝ) :
    |boxDist realFns (fun a => c * half a) (fun a => c * x a) - c * boxDist realFns half x| ≤ max 1 c / 10 ^ 6 := by
  have hd : ∀ a, |c * x a| - c * half a = c * (|x a| - half a) := fun a => by rw [abs_mul, abs_of_pos hc]; ring
  have hm : ∀ a, max (c * (|x a| - half a)) 0 = c * max (|x a| - half a) 0 := fun a => by
    rw [mul_max_of_nonneg _ _ hc.le, mul_zero]
  have e : boxDist realFns (fun a => c * half a) (fun a => c * x a) =
      safeNorm realFns (1 / 10 ^ 12) (fun a => c * max (|x a| - half a) 0) + c * min (maxv fun a => |x a| - half a) 0 := by
    simp only [boxDist, hd, hm]
    rw [maxv_units hc, mul_min_of_nonneg _ _ hc.le, mul_zero]
  rw [e, boxDist, mul_add]
  have := safeNorm_units hc fun a => max (|x a| - half a) 0
  simpa using this

/-- A box of edges 2 and 4, in metres and in millimetres. -/
example : |boxDist realFns (fun a => 1000 * (![1, 2] : Fin 2 → ℝ) a) (fun a => 1000 * (![3, 3] : Fin 2 → ℝ) a) -
    1000 * boxDist realFns ![1, 2] ![3, 3]| ≤ max 1 1000 / 10 ^ 6 :=
  box_units_partial (by norm_num) _ _

/-- **C120**, capsules: likewise. -/
theorem capsule_units_partial {c : ℝ} (hc : 0 < c) (r hh : ℝ) {m : ℕ} (x : Fin (m + 2) → ℝ) :
    |capsuleDist realFns (c * r) (c * hh) (fun a => c * x a) - c * capsuleDist realFns r hh x| ≤ max 1 c / 10 ^ 6 := by
  have hclip : clipK (-(c * hh)) (c * hh) (c * x 1) = c * clipK (-hh) hh (x 1) := by
    unfold clipK
    rw [mul_min_of_nonneg _ _ hc.le, mul_max_of_nonneg _ _ hc.le, mul_neg]
  have hu : Function.update (fun a => c * x a) 1 (c * x 1 - clipK (-(c * hh)) (c * hh) (c * x 1)) =
      fun a => c * Function.update x 1 (x 1 - clipK (-hh) hh (x 1)) a := by
    funext a
    by_cases h : a = 1
    · subst h; simp [hclip, mul_sub]
    · simp [Function.update_of_ne h]
  have := safeNorm_units hc (Function.update x 1 (x 1 - clipK (-hh) hh (x 1)))
  unfold capsuleDist
  rw [hu]
  rw [show ∀ a b : ℝ, a - c * r - c * (b - r) = a - c * b by intros; ring]
  exact this

theorem sqrt_shift {s t k : ℝ} (hs : 0 ≤ s) (hst : s ≤ t) (hk : 0 ≤ k) :
    Real.sqrt (s ^ 2 + k) ≤ Real.sqrt (t ^ 2 + k) ∧ Real.sqrt (t ^ 2 + k) ≤ Real.sqrt (s ^ 2 + k) + (t - s) := by
  refine ⟨Real.sqrt_le_sqrt (by nlinarith), ?_⟩
  have h0 := Real.sqrt_nonneg (s ^ 2 + k)
  have hs' : s ≤ Real.sqrt (s ^ 2 + k) := Real.le_sqrt_of_sq_le (by linarith)
  rw [Real.sqrt_le_left (by linarith)]
  have := Real.sq_sqrt (show 0 ≤ s ^ 2 + k by positivity)
  nlinarith

theorem combine2_real (a b : ℝ) : combine2 realFns a b =
    Real.sqrt (max a 0 ^ 2 + (max b 0 ^ 2 + 1 / 10 ^ 12)) + min (max a b) 0 := by
  unfold combine2 safeNorm
  rw [Fin.sum_univ_two, realFns_sqrt]
  simp [add_assoc]

theorem combine2_shift {a a' : ℝ} (h : a ≤ a') (b : ℝ) :
    combine2 realFns a b ≤ combine2 realFns a' b ∧ combine2 realFns a' b ≤ combine2 realFns a b + (a' - a) := by
  have hk : 0 ≤ max b 0 ^ 2 + 1 / 10 ^ 12 := by positivity
  obtain ⟨m1, m2⟩ := sqrt_shift (le_max_right a 0) (max_le_max_right 0 h) hk
  rw [combine2_real, combine2_real]
  rcases le_total a 0 with h1 | h1 <;> rcases le_total a' 0 with h2 | h2 <;> rcases le_total b 0 with h3 | h3 <;>
    rcases le_total a b with h4 | h4 <;> rcases le_total a' b with h5 | h5 <;>
    simp only [max_eq_left, max_eq_right, min_eq_left, min_eq_right, h1, h2, h3, h4, h5] at m1 m2 ⊢ <;>
    constructor <;> linarith

/-- **C120**, cylinders: likewise, with twice the error since `safe_norm` is used twice. -/
theorem cylinder_units_partial {c : ℝ} (hc : 0 < c) (r hh : ℝ) (x : Fin 3 → ℝ) :
    |cylinderDist realFns (c * r) (c * hh) (fun a => c * x a) - c * cylinderDist realFns r hh x| ≤ 2 * (max 1 c / 10 ^ 6) := by
  have hax : |c * x 1| - c * hh = c * (|x 1| - hh) := by rw [abs_mul, abs_of_pos hc]; ring
  have hrad : (![c * x 0, c * x 2] : Fin 2 → ℝ) = fun a => c * (![x 0, x 2] : Fin 2 → ℝ) a := by
    funext a; fin_cases a <;> simp
  unfold cylinderDist
  simp only
  rw [hax, hrad]
  set ρ := safeNorm realFns (1 / 10 ^ 12) (![x 0, x 2] : Fin 2 → ℝ)
  set ρ' := safeNorm realFns (1 / 10 ^ 12) (fun a => c * (![x 0, x 2] : Fin 2 → ℝ) a)
  have h1 : |ρ' - c * ρ| ≤ max 1 c / 10 ^ 6 := safeNorm_units hc _
  -- the converted combination
  have h2 : |combine2 realFns (c * (ρ - r)) (c * (|x 1| - hh)) - c * combine2 realFns (ρ - r) (|x 1| - hh)| ≤ max 1 c / 10 ^ 6 := by
    have hm : ∀ a : ℝ, max (c * a) 0 = c * max a 0 := fun a => by rw [mul_max_of_nonneg _ _ hc.le, mul_zero]
    have hv : (![c * max (ρ - r) 0, c * max (|x 1| - hh) 0] : Fin 2 → ℝ) =
        fun a => c * (![max (ρ - r) 0, max (|x 1| - hh) 0] : Fin 2 → ℝ) a := by
      funext a; fin_cases a <;> simp
    unfold combine2
    rw [hm, hm, hv, ← mul_max_of_nonneg _ _ hc.le, show min (c * max (ρ - r) (|x 1| - hh)) 0 = c * min (max (ρ - r) (|x 1| - hh)) 0 by
      rw [mul_min_of_nonneg _ _ hc.le, mul_zero], mul_add]
    have := safeNorm_units hc (![max (ρ - r) 0, max (|x 1| - hh) 0] : Fin 2 → ℝ)
    rwa [add_sub_add_right_eq_sub]
  have h3 : |combine2 realFns (ρ' - c * r) (c * (|x 1| - hh)) - combine2 realFns (c * (ρ - r)) (c * (|x 1| - hh))| ≤ |ρ' - c * ρ| := by
    rcases le_total (ρ' - c * r) (c * (ρ - r)) with h | h
    · obtain ⟨g1, g2⟩ := combine2_shift h (c * (|x 1| - hh))
      rw [abs_le]
      have := neg_abs_le (ρ' - c * ρ)
      have := abs_nonneg (ρ' - c * ρ)
      constructor <;> linarith
    · obtain ⟨g1, g2⟩ := combine2_shift h (c * (|x 1| - hh))
      rw [abs_le]
      have := le_abs_self (ρ' - c * ρ)
      have := abs_nonneg (ρ' - c * ρ)
      constructor <;> linarith
  have h4 := abs_sub_le (combine2 realFns (ρ' - c * r) (c * (|x 1| - hh))) (combine2 realFns (c * (ρ - r)) (c * (|x 1| - hh)))
    (c * combine2 realFns (ρ - r) (|x 1| - hh))
  linarith

/-- A cylinder of radius 1 and height 4, in metres and in millimetres. -/
example : |cylinderDist realFns (1000 * 1) (1000 * 2) (fun a => 1000 * (![3, 3, 0] : Fin 3 → ℝ) a) -
    1000 * cylinderDist realFns 1 2 ![3, 3, 0]| ≤ 2 * (max 1 1000 / 10 ^ 6) :=
  cylinder_units_partial (by norm_num) _ _ _

/-- The unit of length matters to boxes: half a micrometre below the face of a box of edge 2 is outside in metres and inside in millimetres, so
the contact acts in one case and not in the other. -/
theorem box_unit_counterexample :
    0 < boxDist realFns (fun _ : Fin 2 => 1) ![1 - 1 / (2 * 10 ^ 6), 0] ∧
      boxDist realFns (fun _ : Fin 2 => 1000 * 1) (fun a => 1000 * (![1 - 1 / (2 * 10 ^ 6), 0] : Fin 2 → ℝ) a) < 0 := by
  have hs : Real.sqrt (1 / 10 ^ 12) = 1 / 10 ^ 6 := by
    rw [show (1 : ℝ) / 10 ^ 12 = (1 / 10 ^ 6) ^ 2 by norm_num, Real.sqrt_sq (by norm_num)]
  have key : ∀ d0 d1 : ℝ, d0 < 0 → d1 ≤ d0 → ∀ half x : Fin 2 → ℝ, |x 0| - half 0 = d0 → |x 1| - half 1 = d1 →
      boxDist realFns half x = 1 / 10 ^ 6 + d0 := by
    intro d0 d1 h0 h1 half x e0 e1
    have hmax : maxv (fun a => |x a| - half a) = d0 := by
      apply le_antisymm
      · refine Finset.sup'_le _ _ fun a _ => ?_
        fin_cases a
        · exact e0.le
        · exact e1.le.trans h1
      · rw [← e0]; exact Finset.le_sup' (fun a => |x a| - half a) (Finset.mem_univ 0)
    have hz : (fun a => max (|x a| - half a) 0) = fun _ => 0 := by
      funext a
      fin_cases a
      · exact max_eq_right (by rw [show |x ((fun i => i) ⟨0, by omega⟩)| - half ((fun i => i) ⟨0, by omega⟩) = d0 from e0]; exact h0.le)
      · exact max_eq_right (by rw [show |x ((fun i => i) ⟨1, by omega⟩)| - half ((fun i => i) ⟨1, by omega⟩) = d1 from e1]; linarith)
    unfold boxDist
    simp only
    rw [hmax, hz, min_eq_left h0.le]
    have : safeNorm realFns (1 / 10 ^ 12) (fun _ : Fin 2 => (0 : ℝ)) = 1 / 10 ^ 6 := by
      change Real.sqrt (∑ _ : Fin 2, (0 : ℝ) ^ 2 + 1 / 10 ^ 12) = _
      rw [← hs]; congr 1; simp
    rw [this]
  constructor
  · rw [key (-(1 / (2 * 10 ^ 6))) (-1) (by norm_num) (by norm_num) _ _ (by simp; norm_num [abs_of_pos]) (by simp)]
    norm_num
  · rw [key (-(1000 / (2 * 10 ^ 6))) (-1000) (by norm_num) (by norm_num) _ _ (by norm_num [abs_of_pos]) (by norm_num)]
    norm_num

end Hydrax
