import Verif.Lemmas.SceneRel
import Verif.Model.Asflip
import Verif.Props.Momentum
import Verif.Props.Transfer

/-!
# C143: forces at the material points act
-/

set_option linter.unusedSectionVars false

namespace Hydrax

open Spec

section
variable {z : Sz} {K : Type*} [Field K] [LinearOrder K] [IsStrictOrderedRing K] [FloorRing K] {dim : ℕ} {SS LS : Type*}

/-- The same scene with other forces at the points of every body that takes part in the simulation. -/
def Spec.withPointForces {FS : Type*} (sv : Solver z K dim SS LS FS) (w : World z K dim SS)
    (f : ∀ p : Fin z.P, Fin (z.np p) → Fin dim → K) : World z K dim SS :=
  { w with bodies := fun p => if ∃ c ∈ sv.couplings, c.p = p then
      (match w.bodies p with
        | .deformable s => .deformable { s with force := f p }
        | .rigid s => .rigid s)
      else w.bodies p }

theorem kinematicUpdate_libEq {sv : Solver z K dim SS LS (ForceState K dim)} (hf : ∀ f ∈ sv.forces, LibForce f)
    (w : World z K dim SS) (m) (dt time : K) :
    kinematicUpdate sv w m dt time = .ok ({ w with sdfs := fun i => (sv.sdfs i).updateKin (w.sdfs i) dt }, m) := by
  have h : ∀ l : List (ForceHooks z K dim SS LS (ForceState K dim)), (∀ f ∈ l, LibForce f) →
      foldE (fun (wm : World z K dim SS × Mech z K LS (ForceState K dim)) f => f.kinematics wm.1 wm.2 dt time) (w, m) l = .ok (w, m) := by
    intro l hl
    induction l with
    | nil => rfl
    | cons f l ih =>
      rw [foldE, libForce_kinematics (hl f List.mem_cons_self)]
      exact ih fun g hg => hl g (List.mem_cons_of_mem _ hg)
  rw [kinematicUpdate, h _ hf]
  rfl

theorem reset_withPointForces {FS : Type*} (sv : Solver z K dim SS LS FS) (w : World z K dim SS)
    (f : ∀ p : Fin z.P, Fin (z.np p) → Fin dim → K) (sdfs : Fin z.D → SS) :
    resetMaterialPoints sv { Spec.withPointForces sv w f with sdfs := sdfs } = resetMaterialPoints sv { w with sdfs := sdfs } := by
  simp only [resetMaterialPoints, Spec.withPointForces]
  congr 1
  funext p
  have hc : (sv.couplings.any fun c => decide (c.p = p)) = true ↔ ∃ c ∈ sv.couplings, c.p = p := by simp
  simp only [hc]
  split_ifs
  · cases w.bodies p <;> rfl
  · rfl

/-- **C143** (refuted): forces given to the material points have no effect on either solver: the result of a call is the same for
all of them, whatever forces of the package act besides. -/
theorem given_force_ignored {sv : Solver z K dim SS LS (ForceState K dim)} (hf : ∀ f ∈ sv.forces, LibForce f) (fn : MathFns K)
    (p2g g2p : Ctx z K dim SS LS (ForceState K dim) → K → K → Except PyErr (Ctx z K dim SS LS (ForceState K dim)))
    (st : SimState z K dim SS LS (ForceState K dim)) (f : ∀ p : Fin z.P, Fin (z.np p) → Fin dim → K) :
    callWith fn sv p2g g2p { st with world := Spec.withPointForces sv st.world f } = callWith fn sv p2g g2p st := by
  unfold callWith
  rw [kinematicUpdate_libEq hf, kinematicUpdate_libEq hf]
  simp only [andThen]
  have h := reset_withPointForces sv st.world f (fun i => (sv.sdfs i).updateKin (st.world.sdfs i) st.dt)
  have e : (Spec.withPointForces sv st.world f).sdfs = st.world.sdfs := rfl
  simp only [e, h]

/-- For the USL solver, over any number of steps. -/
theorem usl_given_force_ignored {sv : Solver z K dim SS LS (ForceState K dim)} (hf : ∀ f ∈ sv.forces, LibForce f) (fn : MathFns K)
    (st : SimState z K dim SS LS (ForceState K dim)) (f : ∀ p : Fin z.P, Fin (z.np p) → Fin dim → K) (n : ℕ) :
    runSteps (uslCall fn sv) (n + 1) { st with world := Spec.withPointForces sv st.world f } = runSteps (uslCall fn sv) (n + 1) st := by
  induction n with
  | zero => exact given_force_ignored hf fn _ _ st f
  | succ n ih => rw [runSteps, ih]; rfl

/-- For the ASFLIP solver, over any number of steps. -/
theorem aflip_given_force_ignored {sv : Solver z K dim SS LS (ForceState K dim)} (hf : ∀ f ∈ sv.forces, LibForce f) (fn : MathFns K)
    (pr : AflipParams K) (st : SimState z K dim SS LS (ForceState K dim)) (f : ∀ p : Fin z.P, Fin (z.np p) → Fin dim → K) (n : ℕ) :
    runSteps (aflipCall fn pr sv) (n + 1) { st with world := Spec.withPointForces sv st.world f } =
      runSteps (aflipCall fn pr sv) (n + 1) st := by
  induction n with
  | zero => exact given_force_ignored hf fn _ _ st f
  | succ n ih => rw [runSteps, ih]; rfl

/-! ### Damping of material points -/

theorem dampForce_zero (a v : K) : dampForce a 0 v = 0 := by simp [dampForce]

theorem dampingBody_zero {n : ℕ} (a : K) {s : MPState K dim n} (h : s.force = fun _ _ => 0) : dampingBody a s = s := by
  have e : (fun p b => dampForce a (s.force p b) (s.velocity p b)) = s.force := by
    funext p b; rw [h]; exact dampForce_zero a _
  rw [dampingBody, e]

theorem foldE_skip {σ α : Type*} {f : σ → α → Except PyErr σ} {a : α} (ha : ∀ s, f s a = .ok s) (s : σ) (l l' : List α) :
    foldE f s (l ++ a :: l') = foldE f s (l ++ l') := by
  induction l generalizing s with
  | nil => rw [List.nil_append, List.nil_append, foldE, ha]
  | cons b l ih =>
    rw [List.cons_append, List.cons_append, foldE, foldE]
    cases f s b with
    | error e => rfl
    | ok t => exact ih t

/-- No body that takes part has forces at its points. -/
def Spec.NoPointForces {FS : Type*} (sv : Solver z K dim SS LS FS) (x : Ctx z K dim SS LS FS) : Prop :=
  ∀ c ∈ sv.couplings, ∀ s, x.world.bodies c.p = .deformable s → s.force = fun _ _ => 0

theorem preP2g_quiet {sv : Solver z K dim SS LS (ForceState K dim)} {f : ForceHooks z K dim SS LS (ForceState K dim)} (hf : LibForce f)
    {x x' : Ctx z K dim SS LS (ForceState K dim)} {dt time : K} (h : f.preP2g x dt time = .ok x') (hx : Spec.NoPointForces sv x) :
    Spec.NoPointForces sv x' := by
  have := (libForce_preP2g (R := fun _ s s' => s.force = (fun _ _ => 0) → s'.force = fun _ _ => 0)
    (fun n s a h0 => by rw [dampingBody_zero a h0]; exact h0) (fun _ _ h => h) (fun _ _ _ _ h1 h2 h => h2 (h1 h)) hf x x' dt time h).1.1
  intro c hc s hs
  have hb := this c.p
  rw [hs] at hb
  cases hw : x.world.bodies c.p with
  | deformable t => rw [hw] at hb; exact hb (hx c hc t hw)
  | rigid t => rw [hw] at hb; exact absurd hb (by simp [Body.Rel])

theorem damper_quiet {sv : Solver z K dim SS LS (ForceState K dim)} {ps : List (Fin z.P)} {gs : List (Fin z.G)} {fIdx : ℕ}
    (hps : ∀ p ∈ ps, ∃ c ∈ sv.couplings, c.p = p) {x x' : Ctx z K dim SS LS (ForceState K dim)} {dt time : K}
    (h : (dampingForce false ps gs fIdx : ForceHooks z K dim SS LS (ForceState K dim)).preP2g x dt time = .ok x')
    (hx : Spec.NoPointForces sv x) : x' = x := by
  simp only [dampingForce, Bool.false_eq_true, if_false] at h
  obtain ⟨a, -, h⟩ := andThen_ok.mp h
  refine (foldE_inv (I := fun y => y = x) ps x x' rfl ?_ h)
  rintro p hp y y' rfl hy
  split at hy
  · exact absurd hy (by simp)
  · rename_i s hs
    obtain ⟨c, hc, rfl⟩ := hps p hp
    have := Except.ok.inj hy
    rw [← this, dampingBody_zero a (hx c hc s hs), ← hs]
    simp [Ctx.setBody, World.setBody]

theorem runHook_damper {sv : Solver z K dim SS LS (ForceState K dim)} {ps : List (Fin z.P)} {gs : List (Fin z.G)} {fIdx : ℕ}
    (hps : ∀ p ∈ ps, ∃ c ∈ sv.couplings, c.p = p) (pre post : List (ForceHooks z K dim SS LS (ForceState K dim)))
    (hpre : ∀ f ∈ pre, LibForce f) {x x' : Ctx z K dim SS LS (ForceState K dim)} {dt time : K} (hx : Spec.NoPointForces sv x)
    (h : runHook ForceHooks.preP2g (pre ++ dampingForce false ps gs fIdx :: post) x dt time = .ok x') :
    runHook ForceHooks.preP2g (pre ++ post) x dt time = .ok x' := by
  induction pre generalizing x with
  | nil =>
    obtain ⟨y, h1, h2⟩ := foldE_cons_ok.mp h
    rw [damper_quiet hps h1 hx] at h2
    exact h2
  | cons f pre ih =>
    obtain ⟨y, h1, h2⟩ := foldE_cons_ok.mp h
    refine foldE_cons_ok.mpr ⟨y, h1, ?_⟩
    exact ih (fun g hg => hpre g (List.mem_cons_of_mem _ hg)) (preP2g_quiet (hpre f List.mem_cons_self) h1 hx) h2

theorem reset_quiet (sv : Solver z K dim SS LS (ForceState K dim)) (w : World z K dim SS) (m c) :
    Spec.NoPointForces sv { world := resetMaterialPoints sv w, mech := m, cache := c } := by
  intro c hc s hs
  have h1 : (sv.couplings.any fun d => decide (d.p = c.p)) = true := List.any_eq_true.mpr ⟨c, hc, by simp⟩
  simp only [resetMaterialPoints, h1, if_true] at hs
  split at hs
  · have := Body.deformable.inj hs; subst this; rfl
  · exact absurd hs (by simp)

/-- One call with the transfer methods as parameters; only the scatter looks at the forces before it. -/
theorem damper_call {sv : Solver z K dim SS LS (ForceState K dim)} {ps : List (Fin z.P)} {gs : List (Fin z.G)} {fIdx : ℕ}
    (hps : ∀ p ∈ ps, ∃ c ∈ sv.couplings, c.p = p) (pre post : List (ForceHooks z K dim SS LS (ForceState K dim)))
    (hpre : ∀ f ∈ pre, LibForce f) (hsv : sv.forces = pre ++ dampingForce false ps gs fIdx :: post) (fn : MathFns K)
    (rest : Ctx z K dim SS LS (ForceState K dim) → Except PyErr (Ctx z K dim SS LS (ForceState K dim)))
    (g2p : Ctx z K dim SS LS (ForceState K dim) → K → K → Except PyErr (Ctx z K dim SS LS (ForceState K dim)))
    {st st' : SimState z K dim SS LS (ForceState K dim)}
    (h : callWith fn sv (fun x dt time => andThen (runHook ForceHooks.preP2g sv.forces x dt time) rest) g2p st = .ok st') :
    callWith fn { sv with forces := pre ++ post }
      (fun x dt time => andThen (runHook ForceHooks.preP2g (pre ++ post) x dt time) rest) g2p st = .ok st' := by
  unfold callWith at h ⊢
  obtain ⟨wm, h1, h⟩ := andThen_ok.mp h
  obtain ⟨x1, h2, h⟩ := andThen_ok.mp h
  obtain ⟨y, h3, h4⟩ := andThen_ok.mp h2
  rw [hsv] at h3
  have h5 := runHook_damper hps pre post hpre (reset_quiet sv wm.1 wm.2 (buildCache fn sv (resetMaterialPoints sv wm.1) st.dt)) h3
  have hk : kinematicUpdate { sv with forces := pre ++ post } st.world st.mech st.dt st.time = .ok wm := by
    rw [← h1]
    unfold kinematicUpdate
    rw [hsv, foldE_skip (fun _ => rfl)]
  have hi : ∀ x, integrateGrid { sv with forces := pre ++ post } x st.dt st.time = integrateGrid sv x st.dt st.time := by
    intro x
    unfold integrateGrid runHook
    rw [hsv, foldE_skip (fun _ => rfl)]
    simp only [foldE_skip (f := fun x (f : ForceHooks z K dim SS LS (ForceState K dim)) => f.gridMoments x st.dt st.time)
      (a := dampingForce false ps gs fIdx) (fun _ => rfl)]
  refine andThen_ok.mpr ⟨wm, hk, ?_⟩
  refine andThen_ok.mpr ⟨x1, andThen_ok.mpr ⟨y, h5, h4⟩, ?_⟩
  rw [hi]
  exact h

/-- **C143** (refuted): damping of the material points (`is_apply_on_grid=False`) does nothing: any run of the USL solver with it is a
run without it, for every coefficient. -/
theorem usl_point_damping_ignored {sv : Solver z K dim SS LS (ForceState K dim)} {ps : List (Fin z.P)} {gs : List (Fin z.G)} {fIdx : ℕ}
    (hps : ∀ p ∈ ps, ∃ c ∈ sv.couplings, c.p = p) (pre post : List (ForceHooks z K dim SS LS (ForceState K dim)))
    (hpre : ∀ f ∈ pre, LibForce f) (hsv : sv.forces = pre ++ dampingForce false ps gs fIdx :: post) (fn : MathFns K) (n : ℕ)
    {st st' : SimState z K dim SS LS (ForceState K dim)} (h : runSteps (uslCall fn sv) n st = .ok st') :
    runSteps (uslCall fn { sv with forces := pre ++ post }) n st = .ok st' := by
  induction n generalizing st' with
  | zero => exact h
  | succ n ih =>
    obtain ⟨s, h1, h2⟩ := andThen_ok.mp h
    exact andThen_ok.mpr ⟨s, ih h1, damper_call hps pre post hpre hsv fn (fun x => foldE p2gCoupling x sv.couplings) _ h2⟩

/-- **C143** (refuted): nor does it in the ASFLIP solver. -/
theorem aflip_point_damping_ignored {sv : Solver z K dim SS LS (ForceState K dim)} {ps : List (Fin z.P)} {gs : List (Fin z.G)} {fIdx : ℕ}
    (hps : ∀ p ∈ ps, ∃ c ∈ sv.couplings, c.p = p) (pre post : List (ForceHooks z K dim SS LS (ForceState K dim)))
    (hpre : ∀ f ∈ pre, LibForce f) (hsv : sv.forces = pre ++ dampingForce false ps gs fIdx :: post) (fn : MathFns K)
    (pr : AflipParams K) (n : ℕ)
    {st st' : SimState z K dim SS LS (ForceState K dim)} (h : runSteps (aflipCall fn pr sv) n st = .ok st') :
    runSteps (aflipCall fn pr { sv with forces := pre ++ post }) n st = .ok st' := by
  induction n generalizing st' with
  | zero => exact h
  | succ n ih =>
    obtain ⟨s, h1, h2⟩ := andThen_ok.mp h
    exact andThen_ok.mpr ⟨s, ih h1, damper_call hps pre post hpre hsv fn (fun x => foldE (aflipP2gCoupling sv.domains) x sv.couplings) _ h2⟩

/-! ### Forces that a hook writes after the reset -/

/-- **C143**: a force that a hook has written to the points before the scatter does act: the nodal momentum after integration is
that of the points plus the impulse of the forces at the points, whatever the stresses. -/
theorem point_force_impulse_partial {n : ℕ} (hdim : dim = 2 ∨ dim = 3) (ker : Kernel) (o e : Fin dim → K) (h : K) (hh : 0 < h) (pad : ℕ)
    (hpad : 2 ≤ pad) (s : MPState K dim n) (hx : ∀ p, InBox o e (s.position p)) (dt : K) (a : Fin dim) :
    let g := GridDomain.create o e h pad
    ∑ j ∈ Finset.range g.numCells, (integrateBody dt (p2gBody (compute ker g s.position) s GridArrays.new)).momentNt j a =
      ∑ p, s.mass p * s.velocity p a + dt * ∑ p, s.force p a := by
  intro g
  have h1 := (p2g_conserves hdim ker o e h hh pad hpad s hx).2 a
  have h2 := nodal_forces_sum hdim ker o e h hh pad hpad s hx GridArrays.new a
  simp only [integrateBody, Finset.sum_add_distrib, ← Finset.sum_mul]
  rw [h1, h2, mul_comm]

/-- The same with the scatter of the ASFLIP solver, whatever the affine matrices. -/
theorem aflip_point_force_impulse_partial {n : ℕ} (hdim : dim = 2 ∨ dim = 3) (ker : Kernel) (o e : Fin dim → K) (h : K) (hh : 0 < h)
    (pad : ℕ) (hpad : 2 ≤ pad) (s : MPState K dim n) (hx : ∀ p, InBox o e (s.position p)) (Bp : Fin n → Mat3 K) (dt : K) (a : Fin dim) :
    let g := GridDomain.create o e h pad
    ∑ j ∈ Finset.range g.numCells,
        (integrateBody dt (aflipP2gBody g.cellSize (compute ker g s.position) Bp s GridArrays.new)).momentNt j a =
      ∑ p, s.mass p * s.velocity p a + dt * ∑ p, s.force p a := by
  intro g
  have hc := goodCache_of_inBox hdim ker o e h hh pad hpad s.position hx
  have h1 := (aflip_p2g_conserves hdim ker o e h hh pad hpad s hx Bp).2 a
  simp only [integrateBody, Finset.sum_add_distrib, ← Finset.sum_mul]
  rw [h1]
  simp only [g, aflip_p2g_force hc]
  rw [sum_scatterAdd _ hc.hash_lt, Finset.sum_add_distrib, sum_internTerm hc, zero_add, sum_point_field hc (fun p => s.force p a), mul_comm]

end

/-! ### Concrete cases -/

/-- The example scene with gravity and damping of the points, coefficient one half. -/
def exPointSolver : Solver exSz ℚ 2 Unit (LawState ℚ) (ForceState ℚ 2) :=
  { exSolver .linear false with forces := [gravityForce true [] [(0 : Fin 1)] 0, dampingForce false [(0 : Fin 1)] [] 1] }

def exPointState : SimState exSz ℚ 2 Unit (LawState ℚ) (ForceState ℚ 2) :=
  { exState with mech := { exState.mech with forces := [.gravity ![0, -10], .damping (1 / 2)] } }

set_option maxRecDepth 100000 in
theorem exPoint_ok : (runSteps (uslCall ratFns exPointSolver) 2 exPointState).isOk = true := by decide +kernel

example : ∃ st', runSteps (uslCall ratFns exPointSolver) 2 exPointState = .ok st' ∧
    runSteps (uslCall ratFns { exPointSolver with forces := [gravityForce true [] [(0 : Fin 1)] 0] }) 2 exPointState = .ok st' := by
  obtain ⟨st', h⟩ := isOk_ok exPoint_ok
  exact ⟨st', h, usl_point_damping_ignored (sv := exPointSolver) (ps := [(0 : Fin 1)]) (gs := []) (fIdx := 1)
    (by intro p _; exact ⟨exCoupling .linear, by simp [exPointSolver, exSolver], Subsingleton.elim _ _⟩)
    [gravityForce true [] [(0 : Fin 1)] 0] [] (by intro f hf; obtain rfl := List.mem_singleton.mp hf; exact .gravity _ _ _ _) rfl ratFns 2 h⟩

example := usl_given_force_ignored (sv := exPointSolver)
  (by intro f hf; rcases List.mem_cons.mp hf with rfl | hf
      · exact .gravity _ _ _ _
      · obtain rfl := List.mem_singleton.mp hf; exact .damping _ _ _ _) ratFns exPointState (fun _ _ => ![100, 200]) 1

/-- A force of a user: a hook that adds `f` to the force at every point of body 0 before the scatter. -/
def pushHook (f : Fin 2 → ℚ) : ForceHooks exSz ℚ 2 Unit (LawState ℚ) (ForceState ℚ 2) :=
  { ForceHooks.default with
    preP2g := fun x _ _ => match x.world.bodies (0 : Fin 1) with
      | .rigid _ => .error .attributeError
      | .deformable s => .ok (x.setBody (0 : Fin 1) (.deformable { s with force := fun p a => s.force p a + f a })) }

def exPushSolver : Solver exSz ℚ 2 Unit (LawState ℚ) (ForceState ℚ 2) := { exSolver .linear false with forces := [pushHook ![0, 7]] }

set_option maxRecDepth 100000 in
/-- A hook of a user that writes forces does change the motion, by the impulse of its forces: two points, 7 each, 0.01. -/
theorem exPush_eval : checkOk (uslCall ratFns exPushSolver exState)
    (fun s => decide (totalMomentum s.world 1 = totalMomentum exState.world 1 + 1 / 100 * (7 + 7))) = true := by decide +kernel

set_option maxRecDepth 100000 in
theorem exPush_ok : (uslCall ratFns exPushSolver exState).isOk = true := by decide +kernel

set_option maxRecDepth 100000 in
theorem exPushDamped_eval : checkOk (uslCall ratFns { exPushSolver with forces := [pushHook ![0, 7], dampingForce false [(0 : Fin 1)] [] 0] }
      { exState with mech := { exState.mech with forces := [.damping (1 / 2)] } })
    (fun s => decide (totalMomentum s.world 1 = totalMomentum exState.world 1 + 1 / 100 * (7 + 7) / 2)) = true := by decide +kernel

set_option maxRecDepth 100000 in
theorem exPushDamped_ok : (uslCall ratFns { exPushSolver with forces := [pushHook ![0, 7], dampingForce false [(0 : Fin 1)] [] 0] }
      { exState with mech := { exState.mech with forces := [.damping (1 / 2)] } }).isOk = true := by decide +kernel

/-- **C143**: forces written by a hook of a user act and are damped at the points, so the hypothesis that the forces before the damper
are those of the package is needed. -/
theorem pushed_points_move : (∃ st', uslCall ratFns exPushSolver exState = .ok st' ∧
      totalMomentum st'.world 1 = totalMomentum exState.world 1 + 1 / 100 * (7 + 7)) ∧
    ∃ st', uslCall ratFns { exPushSolver with forces := [pushHook ![0, 7], dampingForce false [(0 : Fin 1)] [] 0] }
      { exState with mech := { exState.mech with forces := [.damping (1 / 2)] } } = .ok st' ∧
      totalMomentum st'.world 1 = totalMomentum exState.world 1 + 1 / 100 * (7 + 7) / 2 := by
  obtain ⟨st', h⟩ := isOk_ok exPush_ok
  obtain ⟨st2, h2⟩ := isOk_ok exPushDamped_ok
  exact ⟨⟨st', h, of_decide_eq_true (checkOk_ok exPush_eval st' h)⟩, st2, h2, of_decide_eq_true (checkOk_ok exPushDamped_eval st2 h2)⟩

example := point_force_impulse_partial (.inl rfl) .cubic (fun _ => (0 : ℚ)) (fun _ => 1) (1 / 4) (by norm_num) 2 le_rfl
  { exBody with force := ![![1, 2], ![3, 4]] } exBody_inBox (1 / 100) 1
example := aflip_point_force_impulse_partial (.inl rfl) .quadratic (fun _ => (0 : ℚ)) (fun _ => 1) (1 / 4) (by norm_num) 2 le_rfl
  { exBody with force := ![![1, 2], ![3, 4]] } exBody_inBox (fun _ => !![1, 2, 0; -1, 5, 0; 0, 0, 0]) (1 / 100) 1

end Hydrax
