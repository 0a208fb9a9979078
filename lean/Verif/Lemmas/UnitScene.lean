import Verif.Lemmas.Units
import Verif.Lemmas.Fold
import Verif.Lemmas.SceneRel

/-!
# Change of units: laws, forces and one step of the USL solver
-/

namespace Hydrax

section
variable {z : Sz} {K : Type*} [Field K] [LinearOrder K] {dim : ℕ} {SS : Type*}

namespace Spec.UnitSystem
variable (u : Spec.UnitSystem K)

/-- The state of a law in the new units: strains are pure numbers. -/
def law (dim : ℕ) : LawState K → LawState K
  | .elastic r => .elastic fun i => u.stress dim • r i
  | .density r => .density fun i => u.density dim * r i
  | .dp epsE epsP p0 => .dp epsE epsP fun i => u.stress dim * p0 i
  | .mcc pc ref epsE => .mcc (fun i => u.stress dim * pc i) (ref.map fun r i => u.stress dim • r i) epsE

/-- The state of a force in the new units. -/
def forceState : ForceState K dim → ForceState K dim
  | .gravity g => .gravity fun a => u.accel * g a
  | .damping a => .damping a
  | .none => .none

/-- The world in the new units; `f` converts the states of the obstacles. -/
def world (f : Fin z.D → SS → SS) (w : World z K dim SS) : World z K dim SS :=
  { bodies := fun p => u.body (w.bodies p), sdfs := fun d => f d (w.sdfs d) }

/-- Laws, forces and affine matrices in the new units. -/
def mech (m : Mech z K (LawState K) (ForceState K dim)) : Mech z K (LawState K) (ForceState K dim) :=
  { laws := fun c => u.law dim (m.laws c)
    solvers := fun s i => (1 / u.time) • m.solvers s i
    forces := m.forces.map u.forceState }

/-- The whole state in the new units. -/
def state (f : Fin z.D → SS → SS) (st : SimState z K dim SS (LawState K) (ForceState K dim)) :
    SimState z K dim SS (LawState K) (ForceState K dim) :=
  { world := u.world f st.world
    mech := u.mech st.mech
    time := u.time * st.time
    step := st.step
    dt := u.time * st.dt }

/-- The caches in the new units. -/
def cache (c : Cache z K dim) : Cache z K dim :=
  { interactions := fun p g => (c.interactions p g).map fun v => ⟨v.1, u.inter v.2⟩
    grids := fun g => u.grid (c.grids g)
    mpGeoms := fun p d => u.geom (c.mpGeoms p d)
    nodeGeoms := fun g d => u.geom (c.nodeGeoms g d) }

/-- World, mechanics and caches in the new units. -/
def ctx (f : Fin z.D → SS → SS) (x : Ctx z K dim SS (LawState K) (ForceState K dim)) :
    Ctx z K dim SS (LawState K) (ForceState K dim) :=
  { world := u.world f x.world, mech := u.mech x.mech, cache := u.cache x.cache }

/-- A law and the same law with its parameters in the new units. -/
structure LawIn (l l' : Law K dim (LawState K)) : Prop where
  update : ∀ {n : ℕ} (s : MPState K dim n) (ls : LawState K) (dt : K), l'.update (u.mp s) (u.law dim ls) (u.time * dt) =
    (l.update s ls dt).map fun r => (u.mp r.1, u.law dim r.2)
  reset : l'.requiresFReset = l.requiresFReset

/-- An obstacle and the same obstacle in the new units. -/
structure SdfIn (S S' : SdfLogic K dim SS) (f : SS → SS) : Prop where
  kin : ∀ s dt, S'.updateKin (f s) (u.time * dt) = f (S.updateKin s dt)
  dist : ∀ s x, S'.dist (f s) (fun a => u.len * x a) = u.len * S.dist s x
  normal : ∀ s x, S'.normal (f s) (fun a => u.len * x a) = S.normal s x
  velocity : ∀ s x dt, S'.velocity (f s) (fun a => u.len * x a) (u.time * dt) = fun a => u.vel * S.velocity s x dt a
  friction : ∀ s x, S'.friction (f s) (fun a => u.len * x a) = S.friction s x

/-- A force of the package and the same force in the new units: gravity, damping, obstacles without friction. -/
inductive ForceIn : ForceHooks z K dim SS (LawState K) (ForceState K dim) →
    ForceHooks z K dim SS (LawState K) (ForceState K dim) → Prop
  | gravity (onGrid ps gs i) : ForceIn (gravityForce onGrid ps gs i) (gravityForce onGrid ps gs i)
  | damping (onGrid ps gs i) : ForceIn (dampingForce onGrid ps gs i) (dampingForce onGrid ps gs i)
  | collider (fn : MathFns K) (sdf gs gap) : ForceIn (sdfColliderForce fn sdf gs gap 0) (sdfColliderForce fn sdf gs (u.len * gap) 0)

/-- A solver and the same solver set up in the new units. -/
structure SolverIn (f : Fin z.D → SS → SS) (sv sv' : Solver z K dim SS (LawState K) (ForceState K dim)) : Prop where
  alpha : sv'.alpha = sv.alpha
  domains : ∀ g, sv'.domains g = u.domain (sv.domains g)
  couplings : sv'.couplings = sv.couplings
  laws : ∀ c, u.LawIn (sv.laws c) (sv'.laws c)
  forces : List.Forall₂ (u.ForceIn (z := z) (SS := SS)) sv.forces sv'.forces
  sdfs : ∀ d, u.SdfIn (sv.sdfs d) (sv'.sdfs d) (f d)

end Spec.UnitSystem

open Spec

namespace UnitChange
variable {u : Spec.UnitSystem K} {f : Fin z.D → SS → SS}

/-! ### Laws -/

theorem stress_pos [IsStrictOrderedRing K] (u : Spec.UnitSystem K) (dim : ℕ) : 0 < u.stress dim :=
  div_pos (mul_pos u.mass_pos (pow_pos u.len_pos 2)) (mul_pos (pow_pos u.time_pos 2) (pow_pos u.len_pos dim))

omit [LinearOrder K] in
theorem elasticStress_units (c t E nu : K) (ht : t ≠ 0) (L σ : Mat3 K) (dt : K) :
    elasticStress (c * E) nu ((1 / t) • L) (c • σ) (t * dt) = c • elasticStress E nu L σ dt := by
  unfold elasticStress isoT lameModulus shearModulus
  ext i j
  simp only [Matrix.add_apply, Matrix.smul_apply, Matrix.transpose_apply, Matrix.trace, Matrix.diag_apply, Fin.sum_univ_three, smul_eq_mul]
  field_simp

theorem elastic_units (u : Spec.UnitSystem K) (E nu : K) (reset : Bool) :
    u.LawIn (elasticLaw (dim := dim) E nu reset) (elasticLaw (u.stress dim * E) nu reset) where
  update s ls dt := by
    simp only [elasticLaw, Except.map, Except.ok.injEq, Prod.mk.injEq, and_true]
    simp only [Spec.UnitSystem.mp, elasticStress_units _ _ _ _ u.time_pos.ne']
  reset := rfl

theorem ratio_units [IsStrictOrderedRing K] (u : Spec.UnitSystem K) (dim : ℕ) (m v r : K) :
    u.mass * m / (u.vol dim * v) / (u.density dim * r) = m / v / r := by
  have h1 := u.len_pos.ne'
  have h2 := u.mass_pos.ne'
  unfold Spec.UnitSystem.vol Spec.UnitSystem.density
  rw [mul_div_mul_comm, mul_div_mul_left _ _ (by positivity)]

/-- Fluid parameters in the new units. -/
def _root_.Hydrax.Spec.UnitSystem.fluid (u : Spec.UnitSystem K) (dim : ℕ) (pr : FluidParams K) : FluidParams K :=
  { bulk := u.stress dim * pr.bulk, viscosity := u.stress dim * u.time * pr.viscosity, beta := pr.beta }

theorem fluid_units [IsStrictOrderedRing K] (u : Spec.UnitSystem K) (fn : MathFns K) (pr : FluidParams K) (reset : Bool) :
    u.LawIn (fluidLaw (dim := dim) fn pr reset) (fluidLaw fn (u.fluid dim pr) reset) where
  update s ls dt := by
    have ht := u.time_pos.ne'
    have hσ : ∀ (L : Mat3 K) (m v r : K), fluidStress fn (u.fluid dim pr) ((1 / u.time) • L) (u.mass * m) (u.vol dim * v)
        (u.density dim * r) = u.stress dim • fluidStress fn pr L m v r := by
      intro L m v r
      have hp : fluidPressure fn (u.fluid dim pr) (u.mass * m / (u.vol dim * v)) (u.density dim * r) =
          u.stress dim * fluidPressure fn pr (m / v) r := by
        unfold fluidPressure Spec.UnitSystem.fluid
        simp only [ratio_units]
        rw [mul_max_of_nonneg _ _ (stress_pos u dim).le, mul_zero, mul_assoc]
      unfold fluidStress isoT
      simp only [hp]
      generalize fluidPressure fn pr (m / v) r = pp
      ext i j
      simp only [Spec.UnitSystem.fluid, Matrix.add_apply, Matrix.sub_apply, Matrix.smul_apply, Matrix.transpose_apply, Matrix.trace,
        Matrix.diag_apply, Fin.sum_univ_three, smul_eq_mul]
      field_simp
    cases ls with
    | density r =>
      simp only [fluidLaw, Spec.UnitSystem.law]
      simp only [Spec.UnitSystem.mp, hσ]
      split_ifs <;> rfl
    | _ => rfl
  reset := rfl

/-- Parameters of the granular law in the new units. -/
def _root_.Hydrax.Spec.UnitSystem.muI (u : Spec.UnitSystem K) (dim : ℕ) (pr : MuIParams K) : MuIParams K :=
  { muS := pr.muS, muD := pr.muD, I0 := pr.I0, bulk := u.stress dim * pr.bulk, rhoP := u.density dim * pr.rhoP,
    dP := u.len * pr.dP, alpha := pr.alpha / u.time, pMin := u.stress dim * pr.pMin }

/-- What the square root must satisfy: `sqrt (c² x) = c sqrt x`. -/
def SqrtHom (fn : MathFns K) : Prop := ∀ c x : K, 0 < c → fn.sqrt (c ^ 2 * x) = c * fn.sqrt x

theorem muI_units [IsStrictOrderedRing K] (u : Spec.UnitSystem K) {fn : MathFns K} (hsq : SqrtHom fn) (pr : MuIParams K) (reset : Bool) :
    u.LawIn (muILaw (dim := dim) fn pr reset) (muILaw fn (u.muI dim pr) reset) where
  update s ls dt := by
    have ht := u.time_pos.ne'
    have hl := u.len_pos.ne'
    have hm := u.mass_pos.ne'
    have hS := stress_pos u dim
    have hdev : ∀ L : Mat3 K, (1 / 2 : K) • ((1 / u.time) • L + ((1 / u.time) • L).transpose) -
        (((1 / 2 : K) • ((1 / u.time) • L + ((1 / u.time) • L).transpose)).trace / 3) • (1 : Mat3 K) =
        (1 / u.time) • ((1 / 2 : K) • (L + L.transpose) - (((1 / 2 : K) • (L + L.transpose)).trace / 3) • (1 : Mat3 K)) := by
      intro L
      ext i j
      simp only [Matrix.add_apply, Matrix.sub_apply, Matrix.smul_apply, Matrix.transpose_apply, Matrix.trace,
        Matrix.diag_apply, Fin.sum_univ_three, smul_eq_mul]
      ring
    have hrate : ∀ e : Mat3 K, shearRate fn ((1 / u.time) • e) = 1 / u.time * shearRate fn e := by
      intro e
      unfold shearRate
      rw [← hsq _ _ (by have := u.time_pos; positivity)]
      congr 1
      simp only [dcontr, Matrix.smul_apply, smul_eq_mul, Fin.sum_univ_three]
      ring
    have hvisc : ∀ p gd : K, muIViscosity fn (u.muI dim pr) (u.stress dim * p) (1 / u.time * gd) =
        u.stress dim * u.time * muIViscosity fn pr p gd := by
      intro p gd
      have h1 : fn.sqrt ((1 / u.time * gd) ^ 2 + (pr.alpha / u.time) ^ 2) = 1 / u.time * fn.sqrt (gd ^ 2 + pr.alpha ^ 2) := by
        rw [← hsq _ _ (by have := u.time_pos; positivity)]
        congr 1; ring
      have h2 : fn.sqrt (u.stress dim * p / (u.density dim * pr.rhoP)) = u.len / u.time * fn.sqrt (p / pr.rhoP) := by
        rw [← hsq _ _ (div_pos u.len_pos u.time_pos)]
        congr 1
        unfold Spec.UnitSystem.stress Spec.UnitSystem.density
        rw [mul_div_mul_comm]
        congr 1
        field_simp
      simp only [muIViscosity, Spec.UnitSystem.muI, h1, h2]
      have h3 : pr.I0 * (u.len / u.time * fn.sqrt (p / pr.rhoP)) + u.len * pr.dP * (1 / u.time * gd) =
          u.len / u.time * (pr.I0 * fn.sqrt (p / pr.rhoP) + pr.dP * gd) := by ring
      rw [h3, mul_add (u.stress dim * u.time)]
      congr 1
      · rw [show pr.muS * (u.stress dim * p) = u.stress dim * (pr.muS * p) by ring, mul_div_mul_comm]
        congr 1
        field_simp
      · rw [show u.len * pr.dP * (u.stress dim * p) * (pr.muD - pr.muS) =
          (u.len * u.stress dim) * (pr.dP * p * (pr.muD - pr.muS)) by ring, mul_div_mul_comm]
        congr 1
        field_simp
    have hσ : ∀ (L : Mat3 K) (m v r : K), muIStress fn (u.muI dim pr) ((1 / u.time) • L) (u.mass * m) (u.vol dim * v)
        (u.density dim * r) = u.stress dim • muIStress fn pr L m v r := by
      intro L m v r
      unfold muIStress
      simp only [ratio_units, hdev, hrate]
      split_ifs
      · have hp : max ((u.muI dim pr).bulk * (m / v / r - 1)) (u.muI dim pr).pMin =
            u.stress dim * max (pr.bulk * (m / v / r - 1)) pr.pMin := by
          rw [mul_max_of_nonneg _ _ hS.le]
          simp only [Spec.UnitSystem.muI, mul_assoc]
        rw [hp, hvisc]
        generalize (1 / 2 : K) • (L + L.transpose) - (((1 / 2 : K) • (L + L.transpose)).trace / 3) • (1 : Mat3 K) = e
        generalize muIViscosity fn pr (max (pr.bulk * (m / v / r - 1)) pr.pMin) (shearRate fn e) = eta
        unfold isoT
        rw [smul_add, smul_smul, smul_smul, smul_smul]
        congr 2
        field_simp
      · rw [smul_zero]
    cases ls with
    | density r =>
      simp only [muILaw, Spec.UnitSystem.law]
      simp only [Spec.UnitSystem.mp, hσ]
      split_ifs <;> rfl
    | _ => rfl
  reset := rfl

/-! ### The parts of a step -/

theorem world_setBody (w : World z K dim SS) (p : Fin z.P) (b : Body K dim (z.np p)) :
    (u.world f w).setBody p (u.body b) = u.world f (w.setBody p b) := by
  unfold World.setBody Spec.UnitSystem.world
  congr 1
  funext q
  by_cases hq : q = p
  · subst hq; simp
  · simp [Function.update_of_ne hq]

theorem ctx_setBody (x : Ctx z K dim SS (LawState K) (ForceState K dim)) (p : Fin z.P) (b : Body K dim (z.np p)) :
    (u.ctx f x).setBody p (u.body b) = u.ctx f (x.setBody p b) := by
  unfold Ctx.setBody Spec.UnitSystem.ctx
  simp only [world_setBody]

theorem ctx_setGrid (x : Ctx z K dim SS (LawState K) (ForceState K dim)) (g : Fin z.G) (a : GridArrays K dim) :
    (u.ctx f x).setGrid g (u.grid a) = u.ctx f (x.setGrid g a) := by
  unfold Ctx.setGrid Spec.UnitSystem.ctx Spec.UnitSystem.cache
  simp only
  congr 2
  funext k
  by_cases hk : k = g
  · subst hk; simp
  · simp [Function.update_of_ne hk]

/-- The second context is the first one in the new units. -/
def CtxIn (u : Spec.UnitSystem K) (f : Fin z.D → SS → SS) (x x' : Ctx z K dim SS (LawState K) (ForceState K dim)) : Prop :=
  x' = u.ctx f x

/-- The same, and no nodal mass lies between zero and the cutoffs. -/
def CtxIn1 (u : Spec.UnitSystem K) (f : Fin z.D → SS → SS) (x x' : Ctx z K dim SS (LawState K) (ForceState K dim)) : Prop :=
  x' = u.ctx f x ∧ ∀ g j, Weighed u ((x.cache.grids g).mass j)

theorem getGravity_units (fs : List (ForceState K dim)) (i : ℕ) :
    getGravity (fs.map u.forceState) i = (getGravity fs i).map fun g a => u.accel * g a := by
  unfold getGravity
  rw [List.getElem?_map]
  cases fs[i]? with
  | none => rfl
  | some s => cases s <;> rfl

theorem getDamping_units (fs : List (ForceState K dim)) (i : ℕ) : getDamping (fs.map u.forceState) i = getDamping fs i := by
  unfold getDamping
  rw [List.getElem?_map]
  cases fs[i]? with
  | none => rfl
  | some s => cases s <;> rfl

theorem weighed_setGrid {x : Ctx z K dim SS (LawState K) (ForceState K dim)} (hx : ∀ g j, Weighed u ((x.cache.grids g).mass j))
    (g : Fin z.G) (a : GridArrays K dim) (ha : a.mass = (x.cache.grids g).mass) :
    ∀ k j, Weighed u (((x.setGrid g a).cache.grids k).mass j) := by
  intro k j
  unfold Ctx.setGrid
  by_cases hk : k = g
  · subst hk
    simp only [Function.update_self, ha]
    exact hx k j
  · simp only [Function.update_of_ne hk]
    exact hx k j

theorem mapGrids_units (F F' : Fin z.G → GridArrays K dim → GridArrays K dim)
    (hF : ∀ g a, (∀ j, Weighed u (a.mass j)) → F' g (u.grid a) = u.grid (F g a)) (hm : ∀ g a, (F g a).mass = a.mass) (gs : List (Fin z.G)) :
    ∀ {x x' : Ctx z K dim SS (LawState K) (ForceState K dim)}, CtxIn1 u f x x' →
      CtxIn1 u f (gs.foldl (fun x g => x.setGrid g (F g (x.cache.grids g))) x)
        (gs.foldl (fun x g => x.setGrid g (F' g (x.cache.grids g))) x') := by
  induction gs with
  | nil => intro x x' h; exact h
  | cons g gs ih =>
    rintro x x' ⟨rfl, hx⟩
    refine ih ⟨?_, weighed_setGrid hx g _ (hm g _)⟩
    rw [← ctx_setGrid, ← hF g _ (hx g)]
    rfl

theorem hook_pre [IsStrictOrderedRing K] {h h' : ForceHooks z K dim SS (LawState K) (ForceState K dim)} (hf : u.ForceIn h h')
    {x x' : Ctx z K dim SS (LawState K) (ForceState K dim)} (hx : CtxIn u f x x') (dt t dt' t' : K) :
    ExSym (CtxIn u f) (h.preP2g x dt t) (h'.preP2g x' dt' t') := by
  cases hf with
  | gravity onGrid ps gs i =>
    subst hx
    simp only [gravityForce]
    split_ifs
    · exact .ok rfl
    · have : (u.ctx f x).mech.forces[i]? = (x.mech.forces[i]?).map u.forceState := List.getElem?_map ..
      rw [this]
      cases x.mech.forces[i]? with
      | none => exact .error _
      | some _ => exact .ok rfl
    · have : getGravity (u.ctx f x).mech.forces i = _ := getGravity_units (u := u) x.mech.forces i
      rw [this]
      cases getGravity x.mech.forces i with
      | error e => exact .error _
      | ok g => exact .error _
  | damping onGrid ps gs i =>
    subst hx
    simp only [dampingForce]
    split_ifs
    · exact .ok rfl
    · have : getDamping (u.ctx f x).mech.forces i = _ := getDamping_units (u := u) x.mech.forces i
      rw [this]
      cases getDamping x.mech.forces i with
      | error e => exact .error _
      | ok a =>
        refine ExSym.foldE ?_ ps rfl
        rintro y y' p rfl
        have hb : (u.ctx f y).world.bodies p = u.body (y.world.bodies p) := rfl
        rw [hb]
        cases y.world.bodies p with
        | rigid r => exact .error _
        | deformable s =>
          refine .ok ?_
          show _ = _
          rw [← ctx_setBody]
          simp only [Spec.UnitSystem.body, dampingBody_units]
  | collider fn sdf gs gap => exact .ok hx

theorem hook_forces [IsStrictOrderedRing K] {h h' : ForceHooks z K dim SS (LawState K) (ForceState K dim)} (hf : u.ForceIn h h')
    {x x' : Ctx z K dim SS (LawState K) (ForceState K dim)} (hx : CtxIn1 u f x x') (dt t dt' t' : K) :
    ExSym (CtxIn1 u f) (h.gridForces x dt t) (h'.gridForces x' dt' t') := by
  cases hf with
  | gravity onGrid ps gs i =>
    simp only [gravityForce]
    split_ifs
    · exact .ok hx
    · have : getGravity x'.mech.forces i = (getGravity x.mech.forces i).map fun g a => u.accel * g a := by rw [hx.1]; exact getGravity_units (u := u) x.mech.forces i
      rw [this]
      cases getGravity x.mech.forces i with
      | error e => exact .error _
      | ok g => exact .ok (mapGrids_units (fun _ => gravityGrid g) (fun _ => gravityGrid fun a => u.accel * g a) (fun _ a _ => gravity_units u g a) (fun _ _ => rfl) gs hx)
  | damping onGrid ps gs i =>
    simp only [dampingForce]
    split_ifs
    · exact .ok hx
    · have : getDamping x'.mech.forces i = getDamping x.mech.forces i := by rw [hx.1]; exact getDamping_units (u := u) x.mech.forces i
      rw [this]
      cases getDamping x.mech.forces i with
      | error e => exact .error _
      | ok a => exact .ok (mapGrids_units (fun _ => dampingGrid a) (fun _ => dampingGrid a) (fun _ g hg => dampingGrid_units u a g hg) (fun _ _ => rfl) gs hx)
  | collider fn sdf gs gap => exact .ok hx

theorem collide_fold [IsStrictOrderedRing K] (fn : MathFns K) (d : Fin z.D) (gap gap' dt dt' : K) (gs : List (Fin z.G)) :
    ∀ {x x' : Ctx z K dim SS (LawState K) (ForceState K dim)}, CtxIn1 u f x x' →
      CtxIn1 u f (gs.foldl (fun x g => x.setGrid g (collideGrid fn.sqrt gap 0 dt (x.cache.nodeGeoms g d) (x.cache.grids g))) x)
        (gs.foldl (fun x g => x.setGrid g (collideGrid fn.sqrt gap' 0 dt' (x.cache.nodeGeoms g d) (x.cache.grids g))) x') := by
  induction gs with
  | nil => intro x x' h; exact h
  | cons g gs ih =>
    rintro x x' ⟨rfl, hx⟩
    refine ih ⟨?_, weighed_setGrid hx g _ rfl⟩
    rw [← ctx_setGrid, ← collideGrid_units u _ gap gap' dt dt' _ _ (hx g)]
    rfl

theorem hook_moments [IsStrictOrderedRing K] {h h' : ForceHooks z K dim SS (LawState K) (ForceState K dim)} (hf : u.ForceIn h h')
    {x x' : Ctx z K dim SS (LawState K) (ForceState K dim)} (hx : CtxIn1 u f x x') (dt t dt' t' : K) :
    ExSym (CtxIn1 u f) (h.gridMoments x dt t) (h'.gridMoments x' dt' t') := by
  cases hf with
  | gravity onGrid ps gs i => exact .ok hx
  | damping onGrid ps gs i => exact .ok hx
  | collider fn sdf gs gap =>
    simp only [sdfColliderForce]
    cases sdf with
    | none => exact .ok hx
    | some d => exact .ok (collide_fold fn d _ _ dt dt' gs hx)

variable [IsStrictOrderedRing K] [FloorRing K] {fn : MathFns K} {sv sv' : Solver z K dim SS (LawState K) (ForceState K dim)}

omit [IsStrictOrderedRing K] [FloorRing K] in
theorem kin_units (hs : u.SolverIn f sv sv') (w : World z K dim SS) (m : Mech z K (LawState K) (ForceState K dim)) (dt t t' : K) :
    ExSym (fun r r' => r' = (u.world f r.1, u.mech r.2)) (kinematicUpdate sv w m dt t)
      (kinematicUpdate sv' (u.world f w) (u.mech m) (u.time * dt) t') := by
  unfold kinematicUpdate
  refine ExSym.andThen (R := fun r r' => r' = (u.world f r.1, u.mech r.2)) ?_ ?_
  · refine ExSym.foldE2 (Q := u.ForceIn) ?_ hs.forces rfl
    rintro a b h h' hf rfl
    cases hf <;> exact .ok rfl
  · rintro a b rfl
    refine .ok ?_
    simp only [Spec.UnitSystem.world]
    refine Prod.ext ?_ rfl
    simp only [World.mk.injEq, true_and]
    funext i
    exact (hs.sdfs i).kin _ _

omit [IsStrictOrderedRing K] [FloorRing K] in
theorem resetAll_units (hs : u.SolverIn f sv sv') (w : World z K dim SS) :
    resetMaterialPoints sv' (u.world f w) = u.world f (resetMaterialPoints sv w) := by
  unfold resetMaterialPoints Spec.UnitSystem.world
  rw [hs.couplings]
  simp only [World.mk.injEq, and_true]
  funext p
  split_ifs
  · cases w.bodies p with
    | rigid r => rfl
    | deformable s =>
      show Body.deformable _ = Body.deformable _
      rw [reset_units]
  · rfl

omit [IsStrictOrderedRing K] in
theorem conn_units (hs : u.SolverIn f sv sv') (w : World z K dim SS) :
    computeConnectivity sv' (u.world f w) = fun p g => (computeConnectivity sv w p g).map fun v => ⟨v.1, u.inter v.2⟩ := by
  unfold computeConnectivity
  rw [hs.couplings]
  have key : ∀ (l : List (Coupling z)) (d d' : Inter z K dim), (d' = fun p g => (d p g).map fun v => ⟨v.1, u.inter v.2⟩) →
      l.foldl (connStep sv' (u.world f w)) d' = fun p g => (l.foldl (connStep sv w) d p g).map fun v => ⟨v.1, u.inter v.2⟩ := by
    intro l
    induction l with
    | nil => intro d d' h; exact h
    | cons c l ih =>
      intro d d' h
      refine ih _ _ ?_
      subst h
      have hc : compute c.ker (sv'.domains c.g) ((u.world f w).bodies c.p).position =
          u.inter (compute c.ker (sv.domains c.g) (w.bodies c.p).position) := by
        rw [hs.domains, ← compute_units, ← body_position]
        rfl
      funext p g
      unfold connStep Inter.set
      rw [hc]
      by_cases hp : p = c.p
      · subst hp
        simp only [Function.update_self]
        by_cases hg : g = c.g
        · subst hg; simp
        · simp [Function.update_of_ne hg]
      · simp [Function.update_of_ne hp]
  exact key _ _ _ rfl

omit [IsStrictOrderedRing K] [FloorRing K] in
theorem position_units (g : GridDomain K dim) (j : ℕ) : (u.domain g).positionStack j = fun a => u.len * g.positionStack j a := by
  funext a
  simp only [GridDomain.positionStack, Spec.UnitSystem.domain]
  ring

omit [IsStrictOrderedRing K] in
theorem cache_units (hs : u.SolverIn f sv sv') (w : World z K dim SS) (dt : K) :
    buildCache fn sv' (u.world f w) (u.time * dt) = u.cache (buildCache fn sv w dt) := by
  have hi := buildCache_interactions fn sv' (u.world f w) (u.time * dt)
  rw [conn_units hs] at hi
  have hi0 := buildCache_interactions fn sv w dt
  have e : ∀ c c' : Cache z K dim, c.interactions = c'.interactions → c.grids = c'.grids → c.mpGeoms = c'.mpGeoms →
      c.nodeGeoms = c'.nodeGeoms → c = c' := by
    rintro ⟨⟩ ⟨⟩ h1 h2 h3 h4
    simp only at h1 h2 h3 h4
    subst h1 h2 h3 h4
    rfl
  refine e _ _ ?_ ?_ ?_ ?_
  · rw [hi]
    simp only [Spec.UnitSystem.cache, hi0]
  · funext g
    simp [buildCache, Spec.UnitSystem.cache, Spec.UnitSystem.grid, GridArrays.new]
  · funext p d
    have hd := hs.sdfs d
    have hp : ((u.world f w).bodies p).position = _ := body_position u (w.bodies p)
    simp only [buildCache, Spec.UnitSystem.cache, Spec.UnitSystem.geom, sdfGeom, hp, Geom.mk.injEq]
    refine ⟨?_, ?_, ?_, ?_⟩ <;> funext q
    · rw [sub_zero, sub_zero]; exact hd.dist _ _
    · exact hd.normal _ _
    · exact hd.velocity _ _ _
    · exact hd.friction _ _
  · funext g d
    have hd := hs.sdfs d
    simp only [buildCache, Spec.UnitSystem.cache, Spec.UnitSystem.geom, sdfGeom, hs.domains, position_units, Geom.mk.injEq]
    refine ⟨?_, ?_, ?_, ?_⟩ <;> funext q
    · have := hd.dist (w.sdfs d) ((sv.domains g).positionStack q)
      simp only [Spec.UnitSystem.domain, mul_one, mul_sub]
      rw [← this]; rfl
    · exact hd.normal _ _
    · exact hd.velocity _ _ _
    · exact hd.friction _ _

omit [IsStrictOrderedRing K] [FloorRing K] in
theorem p2gCoupling_units (c : Coupling z) {x x' : Ctx z K dim SS (LawState K) (ForceState K dim)} (hx : CtxIn u f x x') :
    ExSym (CtxIn u f) (p2gCoupling x c) (p2gCoupling x' c) := by
  subst hx
  unfold p2gCoupling
  split_ifs
  · exact .ok rfl
  · have hi : (u.ctx f x).cache.interactions c.p c.g = (x.cache.interactions c.p c.g).map fun v => ⟨v.1, u.inter v.2⟩ := rfl
    have hb : (u.ctx f x).world.bodies c.p = u.body (x.world.bodies c.p) := rfl
    rw [hi, hb]
    cases x.cache.interactions c.p c.g with
    | none => exact .error _
    | some v =>
      obtain ⟨ker, ic⟩ := v
      cases x.world.bodies c.p with
      | rigid r => exact .error _
      | deformable s =>
        simp only [Option.map, Spec.UnitSystem.body]
        have hv : (u.mp s).volScalar = s.volScalar := rfl
        rw [hv]
        split_ifs
        · exact .error _
        · refine .ok ?_
          show _ = _
          rw [← ctx_setGrid, ← p2g_units]
          rfl

omit [IsStrictOrderedRing K] [FloorRing K] in
theorem integrateCoupling_units (dt : K) (c : Coupling z) {x x' : Ctx z K dim SS (LawState K) (ForceState K dim)} (hx : CtxIn1 u f x x') :
    ExSym (CtxIn1 u f) (integrateCoupling dt x c) (integrateCoupling (u.time * dt) x' c) := by
  obtain ⟨rfl, hx⟩ := hx
  unfold integrateCoupling
  split_ifs
  · exact .ok ⟨rfl, hx⟩
  · refine .ok ⟨?_, weighed_setGrid hx _ _ rfl⟩
    rw [← ctx_setGrid, ← integrate_units]
    rfl

omit [FloorRing K] in
theorem ghost_units (x : Ctx z K dim SS (LawState K) (ForceState K dim)) (p : Fin z.P) (s : MPState K dim (z.np p)) :
    ghostVelocity (u.ctx f x) p (u.mp s) = (ghostVelocity x p s).map fun f p a => u.vel * f p a := by
  unfold ghostVelocity
  split_ifs with h
  · rfl
  · simp only [Option.map, Option.some.injEq]
    funext q a
    have hb : argmin (z.D - 1) (fun i => ((u.ctx f x).cache.mpGeoms p (i.cast (by omega))).dists q) =
        argmin (z.D - 1) (fun i => (x.cache.mpGeoms p (i.cast (by omega))).dists q) :=
      argmin_units u.len_pos _ _
    rw [hb]
    generalize (argmin (z.D - 1) fun i => (x.cache.mpGeoms p (i.cast (by omega))).dists q) = best
    simp only [Spec.UnitSystem.ctx, Spec.UnitSystem.cache, Spec.UnitSystem.geom, Spec.UnitSystem.mp]
    have hsum : ∀ (n' : Fin dim → K), ∑ b, (u.vel * s.velocity q b - u.vel * (x.cache.mpGeoms p (best.cast (by omega))).wallVels q b) * n' b =
        u.vel * ∑ b, (s.velocity q b - (x.cache.mpGeoms p (best.cast (by omega))).wallVels q b) * n' b := by
      intro n'
      rw [Finset.mul_sum]
      exact Finset.sum_congr rfl fun b _ => by ring
    rw [hsum]
    have hmin : ∀ y : K, min 0 (u.vel * y) = u.vel * min 0 y := by
      intro y
      rw [mul_min_of_nonneg _ _ (vel_pos u).le, mul_zero]
    rw [hmin]
    ring

omit [FloorRing K] in
theorem g2pCoupling_units (alpha dt : K) (c : Coupling z) {x x' : Ctx z K dim SS (LawState K) (ForceState K dim)} (hx : CtxIn1 u f x x') :
    ExSym (CtxIn1 u f) (g2pCoupling alpha dt x c) (g2pCoupling alpha (u.time * dt) x' c) := by
  obtain ⟨rfl, hx⟩ := hx
  unfold g2pCoupling
  by_cases hsk : c.skip = true
  · rw [if_pos hsk, if_pos hsk]; exact .ok ⟨rfl, hx⟩
  · rw [if_neg hsk, if_neg hsk]
    have hi : (u.ctx f x).cache.interactions c.p c.g = (x.cache.interactions c.p c.g).map fun v => ⟨v.1, u.inter v.2⟩ := rfl
    have hb : (u.ctx f x).world.bodies c.p = u.body (x.world.bodies c.p) := rfl
    rw [hi, hb]
    cases x.cache.interactions c.p c.g with
    | none => exact .error _
    | some v =>
      obtain ⟨ker, ic⟩ := v
      cases x.world.bodies c.p with
      | rigid r => exact .error _
      | deformable s =>
        simp only [Option.map, Spec.UnitSystem.body]
        split_ifs
        · exact .error _
        · refine .ok ⟨?_, hx⟩
          rw [← ctx_setBody, ghost_units]
          simp only [Spec.UnitSystem.body]
          rw [← g2p_units u alpha dt ic _ _ (hx c.g)]
          rfl

omit [IsStrictOrderedRing K] [FloorRing K] in
theorem removeShear_units (fn : MathFns K) (reset : Bool) {n : ℕ} (s : MPState K dim n) :
    removeShear fn reset (u.mp s) = u.mp (removeShear fn reset s) := by
  unfold removeShear
  split_ifs <;> rfl

omit [IsStrictOrderedRing K] in
omit [FloorRing K] in
theorem lawCoupling_units (hs : u.SolverIn f sv sv') (dt : K) (c : Coupling z) {x x' : Ctx z K dim SS (LawState K) (ForceState K dim)}
    (hx : CtxIn u f x x') : ExSym (CtxIn u f) (lawCoupling fn sv.laws dt x c) (lawCoupling fn sv'.laws (u.time * dt) x' c) := by
  subst hx
  unfold lawCoupling
  split_ifs
  · exact .ok rfl
  · have hb : (u.ctx f x).world.bodies c.p = u.body (x.world.bodies c.p) := rfl
    rw [hb]
    cases x.world.bodies c.p with
    | rigid r => exact .error _
    | deformable s =>
      simp only [Spec.UnitSystem.body]
      have hu := (hs.laws c.c).update s (x.mech.laws c.c) dt
      have hl : (u.ctx f x).mech.laws c.c = u.law dim (x.mech.laws c.c) := rfl
      rw [hl, hu, (hs.laws c.c).reset]
      cases (sv.laws c.c).update s (x.mech.laws c.c) dt with
      | error e => exact .error _
      | ok r =>
        refine .ok ?_
        show _ = _
        simp only [removeShear_units]
        have hsb := ctx_setBody (u := u) (f := f) x c.p (.deformable (removeShear fn (sv.laws c.c).requiresFReset r.1))
        simp only [Spec.UnitSystem.body] at hsb
        rw [hsb]
        simp only [Spec.UnitSystem.ctx, Spec.UnitSystem.mech, Ctx.setBody, Ctx.mk.injEq, Mech.mk.injEq, and_true, true_and]
        funext k
        by_cases hk : k = c.c
        · subst hk; simp
        · simp [Function.update_of_ne hk]

end UnitChange
end
end Hydrax
