import Verif.Props.DomainSize
import Verif.Props.LatticeSymmetry
import Verif.Props.Galilean

/-!
# C158: moving a scene by whole cells moves the result; C94 over runs

The bodies and obstacles of a scene are moved by a whole number of cells in a grid that stays where it is. Together with C94 this gives
runs seen by an observer who moves a whole number of cells per step.
-/

set_option linter.unusedSectionVars false

namespace Hydrax
open Spec

section
variable {z : Sz} {K : Type*} [Field K] [LinearOrder K] [IsStrictOrderedRing K] [FloorRing K] {dim : ℕ} {SS : Type*}

namespace Spec

/-- A body at another place. -/
def bodyAt {n : ℕ} (t : Fin dim → K) : Body K dim n → Body K dim n
  | .deformable s => .deformable { s with position := fun q a => s.position q a + t a }
  | .rigid r => .rigid { r with position := fun q a => r.position q a + t a }

/-- The scene at another place; `τ` moves the obstacles. Velocities, stresses, laws, forces and the clock are those of before. -/
def sceneAt {LS FS : Type*} (t : Fin dim → K) (τ : Fin z.D → SS → SS) (st : SimState z K dim SS LS FS) : SimState z K dim SS LS FS :=
  { st with world := { bodies := fun p => bodyAt t (st.world.bodies p), sdfs := fun i => τ i (st.world.sdfs i) } }

/-- The moved obstacle has the distances, normals, velocities and friction of before, moved. -/
structure Moves (t : Fin dim → K) (τ : SS → SS) (f : SdfLogic K dim SS) : Prop where
  kin : ∀ s dt, f.updateKin (τ s) dt = τ (f.updateKin s dt)
  dist : ∀ s x, f.dist (τ s) (fun a => x a + t a) = f.dist s x
  normal : ∀ s x, f.normal (τ s) (fun a => x a + t a) = f.normal s x
  velocity : ∀ s x dt, f.velocity (τ s) (fun a => x a + t a) dt = f.velocity s x dt
  friction : ∀ s x, f.friction (τ s) (fun a => x a + t a) = f.friction s x

/-- `t` is a whole number of cells of every grid. -/
def WholeCells (sv : Solver z K dim SS (LawState K) (ForceState K dim)) (t : Fin dim → K) : Prop :=
  ∀ g d, ∃ k : ℤ, t d = k * (sv.domains g).cellSize

/-- Grids with at least one node and matching inverse cell size. -/
def GridsProper (sv : Solver z K dim SS (LawState K) (ForceState K dim)) : Prop :=
  ∀ g, (∀ d, 0 < (sv.domains g).gridSize d) ∧ (sv.domains g).cellSize * (sv.domains g).invCellSize = 1

end Spec

/-- The translation as a symmetry of the lattice. -/
def shiftSym (t : Fin dim → K) : LatSym K dim := { perm := 1, flip := fun _ => false, shift := t }

theorem shiftSym_vec (t v : Fin dim → K) : (shiftSym t).vec v = v := by
  funext a
  simp only [Spec.LatSym.vec, Spec.LatSym.sg, shiftSym, Bool.false_eq_true, if_false, one_mul]
  rfl

theorem shiftSym_point (t x : Fin dim → K) : (shiftSym t).point x = fun a => x a + t a := by
  funext a
  simp only [Spec.LatSym.point, shiftSym_vec]
  rfl

theorem shiftSym_mat (t : Fin dim → K) (h : dim ≤ 3) : (shiftSym t).mat h = 1 := by
  have hp : (shiftSym t).p3 h = 1 := by
    unfold Spec.LatSym.p3 shiftSym
    exact Equiv.Perm.extendDomain_one _
  ext i j
  unfold Spec.LatSym.mat
  rw [hp, Matrix.one_apply]
  simp [Spec.LatSym.s3, Spec.LatSym.sg, shiftSym]

theorem rotated_by_one (A : Mat3 K) : rotated (1 : Mat3 K) A = A := by
  simp [rotated]

theorem shiftSym_body (t : Fin dim → K) (h : dim ≤ 3) {n : ℕ} (b : Body K dim n) : (shiftSym t).body h (Equiv.refl _) b = bodyAt t b := by
  cases b with
  | rigid r => simp only [Spec.LatSym.body, shiftSym_vec, shiftSym_point, Equiv.refl_symm, Equiv.refl_apply, bodyAt]
  | deformable s =>
    simp only [Spec.LatSym.body, Spec.LatSym.mp, shiftSym_vec, shiftSym_point, shiftSym_mat, rotated_by_one, Equiv.refl_symm, Equiv.refl_apply,
      bodyAt]
    cases s.FStore <;> simp

theorem shiftSym_state (t : Fin dim → K) (h : dim ≤ 3) (τ : Fin z.D → SS → SS) (st : SimState z K dim SS (LawState K) (ForceState K dim)) :
    ((shiftSym t).scene h (fun _ => Equiv.refl _) (fun _ => Equiv.refl ℕ) τ).state st = sceneAt t τ st := by
  have h1 : ∀ ls : LawState K, rotatedState (1 : Mat3 K) (renumbered (Equiv.refl ℕ) ls) = ls := by
    intro ls
    cases ls with
    | mcc pc r e =>
      cases r <;> simp [renumbered, rotatedState, rotated_by_one]
    | _ => simp [renumbered, rotatedState, rotated_by_one]
  have h2 : (shiftSym t).forceState = id := by
    funext f
    cases f <;> simp [Spec.LatSym.forceState, shiftSym_vec]
  unfold Spec.SceneSym.state Spec.SceneSym.world Spec.SceneSym.mech Spec.LatSym.scene sceneAt
  simp only [shiftSym_body, shiftSym_mat, h1, h2, List.map_id]

variable {sv : Solver z K dim SS (LawState K) (ForceState K dim)} {t : Fin dim → K} {τ : Fin z.D → SS → SS}

theorem bodyAt_position {n : ℕ} (b : Body K dim n) : (bodyAt t b).position = fun q a => b.position q a + t a := by
  cases b <;> rfl

/-- The grid moved along. -/
def domAt (t : Fin dim → K) (g : GridDomain K dim) : GridDomain K dim := { g with origin := fun d => g.origin d + t d }

theorem shiftSym_image (hdim : dim = 2 ∨ dim = 3) (hg : GridsProper sv) (hl : ∀ c, LibLaw (sv.laws c)) (hf : ∀ f ∈ sv.forces, LibForce f)
    (hτ : ∀ d, Moves t (τ d) (sv.sdfs d)) :
    (shiftSym t).Image (fun p => Equiv.refl (Fin (z.np p))) (fun _ => Equiv.refl ℕ) τ sv (onGrids sv fun g => domAt t (sv.domains g)) where
  dims := hdim
  alpha := rfl
  domains g := ⟨rfl, (hg g).1, rfl, rfl, (hg g).2, fun d => add_comm _ _⟩
  couplings := rfl
  laws := rfl
  libLaws := hl
  forces := rfl
  libForces := hf
  sdfs d :=
    { kin := (hτ d).kin
      dist := fun s x => by rw [shiftSym_point]; exact (hτ d).dist s x
      normal := fun s x => by rw [shiftSym_point, shiftSym_vec]; exact (hτ d).normal s x
      velocity := fun s x dt => by rw [shiftSym_point, shiftSym_vec]; exact (hτ d).velocity s x dt
      friction := fun s x => by rw [shiftSym_point]; exact (hτ d).friction s x }
  numbers _ _ _ := rfl

theorem nodeIdx_domAt (ker : Kernel) (g : GridDomain K dim) (x : Fin dim → K) (s : ℕ) :
    nodeIdx ker (domAt t g) (fun a => x a + t a) s = nodeIdx ker g x s := by
  funext d
  have hb : basePos (domAt t g) (fun a => x a + t a) d = basePos g x d := by
    simp only [basePos, domAt]
    ring
  unfold nodeIdx
  rw [hb]

theorem fits_domAt {st : SimState z K dim SS (LawState K) (ForceState K dim)} (h : WindowsInside sv st.world) :
    WindowsInside (onGrids sv fun g => domAt t (sv.domains g)) (sceneAt t τ st).world := by
  intro c hc q s hs
  have h0 := h c hc q s hs
  simp only [sceneAt, bodyAt_position, onGrids]
  rw [nodeIdx_domAt]
  exact h0

theorem lattice_domAt (hg : GridsProper sv) (ht : WholeCells sv t) (g : Fin z.G) :
    SameLattice (sv.domains g) (domAt t (sv.domains g)) (fun d => -(ht g d).choose) where
  cell := rfl
  inv := rfl
  one := (hg g).2
  origin d := by
    have := (ht g d).choose_spec
    simp only [domAt]
    push_cast
    linear_combination this

/-- **C158** One step: the scene moved by whole cells does what the scene does, moved; it fails if and as the scene fails. -/
theorem whole_cells (hdim : dim = 2 ∨ dim = 3) (hg : GridsProper sv) (hl : ∀ c, LibLaw (sv.laws c)) (hf : ∀ f ∈ sv.forces, LibForce f)
    (ht : WholeCells sv t) (hτ : ∀ d, Moves t (τ d) (sv.sdfs d)) (fn : MathFns K)
    {st : SimState z K dim SS (LawState K) (ForceState K dim)} (h1 : WindowsInside sv st.world) (h2 : WindowsInside sv (sceneAt t τ st).world) :
    uslCall fn sv (sceneAt t τ st) = (uslCall fn sv st).map (sceneAt t τ) := by
  have h3 : dim ≤ 3 := by rcases hdim with h | h <;> omega
  have e := usl_symmetric (h := h3) (shiftSym_image hdim hg hl hf hτ) fn st
  have hs : ((shiftSym t).scene h3 (fun p => Equiv.refl (Fin (z.np p))) (fun _ : Fin z.C => Equiv.refl ℕ) τ).state = sceneAt t τ :=
    funext fun st => shiftSym_state t h3 τ st
  rw [hs] at e
  exact (call_domain (lattice_domAt hg ht) hf fn h2 (fits_domAt h1)).symm.trans e

/-- **C158** Runs of any length. -/
theorem whole_cells_run (hdim : dim = 2 ∨ dim = 3) (hg : GridsProper sv) (hl : ∀ c, LibLaw (sv.laws c)) (hf : ∀ f ∈ sv.forces, LibForce f)
    (ht : WholeCells sv t) (hτ : ∀ d, Moves t (τ d) (sv.sdfs d)) (fn : MathFns K) (n : ℕ)
    (st : SimState z K dim SS (LawState K) (ForceState K dim))
    (hfit : ∀ i < n, ∀ si, runSteps (uslCall fn sv) i st = .ok si → WindowsInside sv si.world ∧ WindowsInside sv (sceneAt t τ si).world) :
    runSteps (uslCall fn sv) n (sceneAt t τ st) = (runSteps (uslCall fn sv) n st).map (sceneAt t τ) := by
  induction n with
  | zero => rfl
  | succ n ih =>
    unfold runSteps
    rw [ih fun i hi => hfit i (by omega)]
    cases hr : runSteps (uslCall fn sv) n st with
    | error e => rfl
    | ok s =>
      have := hfit n (by omega) s hr
      exact whole_cells hdim hg hl hf ht hτ fn this.1 this.2

/-! ### An observer who moves a whole number of cells per step -/

/-- Obstacles are moved once per call and not touched otherwise. -/
theorem call_sdfs {fn : MathFns K} (hf : ∀ f ∈ sv.forces, InertialForce f) {st st' : SimState z K dim SS (LawState K) (ForceState K dim)}
    (h : uslCall fn sv st = .ok st') : st'.world.sdfs = fun i => (sv.sdfs i).updateKin (st.world.sdfs i) st.dt := by
  have hlib : ∀ f ∈ sv.forces, LibForce f := fun f hm => InertialForce.lib (hf f hm)
  obtain ⟨wm, x1, x2, x3, x4, h1, h2, h3, h4, h5, rfl⟩ := callWith_ok h
  have hk := (kinematicUpdate_lib hlib _ _ _ _ _ h1).2.2
  obtain ⟨x0, h20, h21⟩ := andThen_ok.mp h2
  have e0 : x0.world.sdfs = wm.1.sdfs := by
    refine foldE_inv (I := fun a : Ctx z K dim SS (LawState K) (ForceState K dim) => a.world.sdfs = wm.1.sdfs) sv.forces _ x0 rfl ?_ h20
    intro f hm s s' hs hh
    rw [inertial_pre_eq (hf f hm) _ _ hh]
    exact hs
  have e1 := same_of_fold sv.couplings x0 x1 (fun c _ x x' hx => p2gCoupling_world x x' c hx) h21
  have e2 := integrateGrid_lib hlib _ _ _ _ h3
  have e3 : x3.world.sdfs = x2.world.sdfs := by
    refine foldE_inv (I := fun a : Ctx z K dim SS (LawState K) (ForceState K dim) => a.world.sdfs = x2.world.sdfs) sv.couplings _ x3 rfl ?_ h4
    intro c _ s s' hs hh
    unfold g2pCoupling at hh
    by_cases hk : c.skip = true
    · rw [if_pos hk] at hh; rw [← Except.ok.inj hh]; exact hs
    · rw [if_neg hk] at hh
      split at hh
      · cases hh
      · split at hh
        · cases hh
        · split_ifs at hh
          rw [← Except.ok.inj hh]; exact hs
  have e4 : x4.world.sdfs = x3.world.sdfs := by
    refine foldE_inv (I := fun a : Ctx z K dim SS (LawState K) (ForceState K dim) => a.world.sdfs = x3.world.sdfs) sv.couplings _ x4 rfl ?_ h5
    intro c _ s s' hs hh
    unfold lawCoupling at hh
    by_cases hk : c.skip = true
    · rw [if_pos hk] at hh; rw [← Except.ok.inj hh]; exact hs
    · rw [if_neg hk] at hh
      split at hh
      · cases hh
      · obtain ⟨r, -, h6⟩ := andThen_ok.mp hh
        rw [← Except.ok.inj h6]; exact hs
  change x4.world.sdfs = _
  rw [e4, e3, e2.1, e1.1, e0, hk]

theorem call_dt {fn : MathFns K} {st st' : SimState z K dim SS (LawState K) (ForceState K dim)} (h : uslCall fn sv st = .ok st') :
    st'.dt = st.dt := by
  obtain ⟨wm, x1, x2, x3, x4, h1, h2, h3, h4, h5, rfl⟩ := callWith_ok h
  rfl

namespace Spec

/-- The velocity `u` added to every body; `β` adds it to the obstacles. -/
def seenMoving {LS FS : Type*} (u : Fin dim → K) (β : Fin z.D → SS → SS) (st : SimState z K dim SS LS FS) : SimState z K dim SS LS FS :=
  { st with world := { bodies := fun p => carriedBody u 0 (st.world.bodies p), sdfs := fun i => β i (st.world.sdfs i) } }

/-- An obstacle (in states `Q`) that looks the same with the added velocity: `β` adds it, `τ n` moves it by `n dt u`. -/
structure Rides (u : Fin dim → K) (dt : K) (Q : SS → Prop) (β : SS → SS) (τ : ℕ → SS → SS) (f : SdfLogic K dim SS) : Prop where
  keeps : ∀ s, Q s → Q (f.updateKin s dt)
  look : ∀ s, Q s → SameLook f u dt (f.updateKin s dt) (f.updateKin (β s) dt)
  start : ∀ s, Q s → τ 0 (β s) = β s
  step : ∀ n s, Q s → τ n (f.updateKin (β s) dt) = τ (n + 1) (β (f.updateKin s dt))
  moves : ∀ n : ℕ, Moves (fun a => n * dt * u a) (τ n) f

end Spec

theorem bodyAt_zero {n : ℕ} (b : Body K dim n) : bodyAt (fun _ => 0) b = b := by
  cases b <;> simp [bodyAt]

/-- **C94 over runs.** An observer who moves a whole number of cells per step sees the same run: same law states and clock, and every body
with the velocity `u` added and moved by `n dt u`. The run must not leave the grid for either, and nodes must not be lighter than the
cutoff. -/
theorem galilean_run_partial {fn : MathFns K} (hdim : dim = 2 ∨ dim = 3) (hg : GridsProper sv) (hl : ∀ c, LibLaw (sv.laws c))
    (hf : ∀ f ∈ sv.forces, InertialForce f) {u : Fin dim → K} {st : SimState z K dim SS (LawState K) (ForceState K dim)}
    (hu : WholeCells sv fun a => st.dt * u a) {Q : Fin z.D → SS → Prop} {β : Fin z.D → SS → SS} {τ : Fin z.D → ℕ → SS → SS}
    (hτ : ∀ d, Rides u st.dt (Q d) (β d) (τ d) (sv.sdfs d)) (hQ : ∀ d, Q d (st.world.sdfs d))
    (hall : ∀ p, (∃ c ∈ sv.couplings, c.skip = false ∧ c.p = p) ∧ ∃ s, st.world.bodies p = .deformable s) (n : ℕ)
    {st' : SimState z K dim SS (LawState K) (ForceState K dim)} (h : runSteps (uslCall fn sv) n st = .ok st')
    (hr : ∀ i < n, ∀ si, runSteps (uslCall fn sv) i st = .ok si → Regular uslCutoff sv si.world ∧ WindowsInside sv si.world ∧
      WindowsInside sv (sceneAt (fun a => i * st.dt * u a) (fun _ s => s) si).world) :
    runSteps (uslCall fn sv) n (seenMoving u β st) = .ok (sceneAt (fun a => n * st.dt * u a) (fun d => τ d n) (seenMoving u β st')) ∧
    st'.dt = st.dt ∧ (∀ d, Q d (st'.world.sdfs d)) ∧ ∀ p, ∃ s, st'.world.bodies p = .deformable s := by
  induction n generalizing st' with
  | zero =>
    obtain rfl : st = st' := by simpa [runSteps] using h
    refine ⟨?_, rfl, hQ, fun p => (hall p).2⟩
    simp only [runSteps, sceneAt, seenMoving, Nat.cast_zero, zero_mul, bodyAt_zero, (hτ _).start _ (hQ _)]
  | succ n ih =>
    obtain ⟨s, h1, h2⟩ := runSteps_succ_ok.mp h
    obtain ⟨ih1, ih2, ih3, ih4⟩ := ih h1 fun i hi => hr i (by omega)
    obtain ⟨hreg, hfit, hfit'⟩ := hr n (by omega) s h1
    have hsd := call_sdfs hf h2
    rw [ih2] at hsd
    have hb : Boosted sv u s (seenMoving u β s) :=
      { bodies := fun _ => rfl, sdfs := fun i => by rw [ih2]; exact (hτ i).look _ (ih3 i), mech := rfl, dt := rfl, time := rfl, step := rfl }
    obtain ⟨r, hr1, hr2, hr3, hr4, hr5, -⟩ := usl_galilean_partial hdim hf (fun c => libLaw_carried (hl c)) h2 hreg u hb
    have hsd' := call_sdfs hf hr1
    have hdef : ∀ p, ∃ t, st'.world.bodies p = .deformable t := by
      intro p
      obtain ⟨t, ht⟩ := ih4 p
      have := uslCall_rel (R := fun _ _ _ => True) (fn := fn)
        { refl := fun _ _ => trivial, trans := fun _ _ _ _ _ _ => trivial, damp := fun _ _ _ => trivial, reset := fun _ _ => trivial
          g2p := fun _ _ _ _ _ _ _ _ _ => trivial, aflip := fun _ _ _ _ _ _ _ _ _ _ _ => trivial, stress := fun _ _ _ => trivial
          shear := fun _ _ _ => trivial }
        (fun c => (hl c).onlyStress) (fun f hm => InertialForce.lib (hf f hm)) s st' h2 p
      rw [ht] at this
      cases hb' : st'.world.bodies p with
      | deformable t' => exact ⟨t', rfl⟩
      | rigid r => rw [hb'] at this; exact this.elim
    have hdt : st'.dt = st.dt := (call_dt h2).trans ih2
    have hfit0 : WindowsInside sv (seenMoving u β s).world := by
      intro c hc q
      have := hfit c hc q
      obtain ⟨t, ht⟩ := ih4 c.p
      have e : ((seenMoving u β s).world.bodies c.p).position = (s.world.bodies c.p).position := by
        simp only [seenMoving, ht, carriedBody]
        funext q a
        exact add_zero _
      rw [e]; exact this
    have hfit1 : WindowsInside sv (sceneAt (fun a => n * st.dt * u a) (fun d => τ d n) (seenMoving u β s)).world := by
      intro c hc q
      have := hfit' c hc q
      obtain ⟨t, ht⟩ := ih4 c.p
      have e : ((sceneAt (fun a => n * st.dt * u a) (fun d => τ d n) (seenMoving u β s)).world.bodies c.p).position =
          ((sceneAt (fun a => n * st.dt * u a) (fun _ s => s) s).world.bodies c.p).position := by
        simp only [sceneAt, bodyAt_position, seenMoving, ht, carriedBody]
        funext q a
        change t.position q a + 0 + _ = t.position q a + _
        rw [add_zero]
      rw [e]; exact this
    have hw : WholeCells sv fun a => n * st.dt * u a := by
      intro g d
      obtain ⟨k, hk⟩ := hu g d
      exact ⟨n * k, by push_cast; linear_combination (n : K) * hk⟩
    have hmove := whole_cells hdim hg hl (fun f hm => InertialForce.lib (hf f hm)) hw (fun d => (hτ d).moves n) fn hfit0 hfit1
    refine ⟨?_, hdt, fun d => by rw [hsd]; exact (hτ d).keeps _ (ih3 d), hdef⟩
    unfold runSteps
    rw [ih1]
    change uslCall fn sv _ = _
    rw [hmove, hr1]
    change Except.ok _ = Except.ok _
    congr 1
    have hrb : ∀ p, r.world.bodies p = carriedBody u (fun a => st.dt * u a) (st'.world.bodies p) := by
      intro p
      obtain ⟨c, hc, hs, rfl⟩ := (hall p).1
      rw [← ih2]
      exact hr5 c hc hs
    have hrd : r.dt = st'.dt := by
      rw [call_dt hr1, call_dt h2]; rfl
    have ebod : ∀ p, bodyAt (fun a => n * st.dt * u a) (r.world.bodies p) =
        bodyAt (fun a => ((n + 1 : ℕ) : K) * st.dt * u a) (carriedBody u 0 (st'.world.bodies p)) := by
      intro p
      obtain ⟨t, ht⟩ := hdef p
      rw [hrb, ht]
      simp only [carriedBody, bodyAt, carried]
      congr 2
      funext q a
      push_cast
      simp only [Pi.zero_apply]
      ring
    have esdf : ∀ i, τ i n (r.world.sdfs i) = τ i (n + 1) (β i (st'.world.sdfs i)) := by
      intro i
      rw [hsd', hsd]
      change τ i n ((sv.sdfs i).updateKin (β i (s.world.sdfs i)) s.dt) = _
      rw [ih2]
      exact (hτ i).step n _ (ih3 i)
    unfold sceneAt
    simp only [ebod, esdf, seenMoving]
    cases r
    cases st'
    simp only at hr2 hr3 hr4 hrd
    subst hr2 hr3 hr4 hrd
    rfl

/-! ### Obstacles of the package -/

/-- An obstacle state at another place. -/
def Spec.obstacleAt (t : Fin dim → K) (s : SdfState K dim) : SdfState K dim := { s with com := fun a => s.com a + t a }

theorem obstacleAt_local (fn : MathFns K) (t : Fin dim → K) (s : SdfState K dim) (x : Fin dim → K) :
    toLocal fn (obstacleAt t s) (fun a => x a + t a) = toLocal fn s x := by
  unfold toLocal
  rw [rotInv_congr fn dim s (obstacleAt t s) rfl rfl]
  congr 1
  funext a
  simp only [obstacleAt]
  ring

theorem spinVel_congr : (dim : ℕ) → (s s' : SdfState K dim) → s'.omega = s.omega → s'.omega3 = s.omega3 → ∀ r, spinVel dim s' r = spinVel dim s r
  | 0, _, _, _, _, _ => rfl
  | 1, _, _, _, _, _ => rfl
  | 2, s, s', h, _, r => by simp only [spinVel, h]
  | 3, s, s', _, h, r => by simp only [spinVel, h]
  | _ + 4, _, _, _, _, _ => rfl

/-- Every obstacle with the methods of the base class can be moved. -/
theorem base_moves (fn : MathFns K) {grad : ((Fin dim → K) → K) → (Fin dim → K) → Fin dim → K} (t : Fin dim → K)
    (hg : ∀ f f' : (Fin dim → K) → K, (∀ x, f' (fun a => x a + t a) = f x) → ∀ x, grad f' (fun a => x a + t a) = grad f x)
    (dist friction : (Fin dim → K) → K) : Moves t (obstacleAt t) (baseSdf fn grad dist friction) where
  kin s dt := by
    simp only [baseSdf, updateKin, obstacleAt]
    split_ifs
    · congr 1; funext a; ring
    · congr 1; funext a; ring
  dist s x := by simp only [baseSdf, obstacleAt_local]
  normal s x := by
    have h := hg (fun y => dist (toLocal fn s y)) (fun y => dist (toLocal fn (obstacleAt t s) y)) (fun x => by rw [obstacleAt_local]) x
    funext a
    simp only [baseSdf, autoNormal]
    rw [h]
  velocity s x dt := by
    funext a
    simp only [baseSdf, sdfVelocity]
    rw [spinVel_congr dim s (obstacleAt t s) rfl rfl]
    have e : (fun b => x b + t b - (obstacleAt t s).com b) = fun b => x b - s.com b := by funext b; simp only [obstacleAt]; ring
    rw [e]
    rfl
  friction s x := by simp only [baseSdf, obstacleAt_local]

/-- A plane that does not rotate, seen by an observer who moves along it. -/
theorem plane_rides (fn : MathFns K) {grad : ((Fin dim → K) → K) → (Fin dim → K) → Fin dim → K} (n : Fin dim → K) (mu : K) (u : Fin dim → K) (dt : K)
    (hg : ∀ (t : Fin dim → K) (f f' : (Fin dim → K) → K), (∀ x, f' (fun a => x a + t a) = f x) → ∀ x, grad f' (fun a => x a + t a) = grad f x) :
    Rides u dt (fun s => s.omega = 0 ∧ s.omega3 = 0 ∧ ∀ k : ℕ, dotv (rotInv fn dim ((fun s => updateKin fn s dt)^[k] s) u) n = 0) (boostedObstacle u)
      (fun k => obstacleAt fun a => k * dt * u a) (baseSdf fn grad (planeDist n) fun _ => mu) where
  keeps s hs := by
    refine ⟨?_, ?_, fun k => ?_⟩
    · change (updateKin fn s dt).omega = 0
      unfold updateKin; split_ifs <;> exact hs.1
    · change (updateKin fn s dt).omega3 = 0
      unfold updateKin; split_ifs <;> exact hs.2.1
    · have := hs.2.2 (k + 1)
      rwa [Function.iterate_succ_apply] at this
  look s hs := plane_sameLook fn grad n mu s hs.1 hs.2.1 u dt (hs.2.2 1)
  start s _ := by simp [obstacleAt]
  step k s _ := by
    simp only [baseSdf, updateKin, obstacleAt, boostedObstacle]
    split_ifs
    all_goals
      congr 1
      funext a
      push_cast
      ring
  moves k := base_moves fn _ (hg _) _ _

end

/-! ### The example scene -/

theorem ex_grids (ker : Kernel) (reset : Bool) : GridsProper (exSolver ker reset) := by
  intro g
  refine ⟨?_, ?_⟩
  · simp only [exSolver]; decide +kernel
  · simp only [exSolver]; decide +kernel

/-- Decidable form: the points, moved by `t`, have their windows inside the grid. -/
def exFitsB (t : Fin 2 → ℚ) (w : World exSz ℚ 2 Unit) : Bool :=
  (List.finRange 2).all fun q => (List.range 4).all fun s => decide (isValid
    (GridDomain.create (fun _ : Fin 2 => (0 : ℚ)) (fun _ => 1) (1 / 2) 2).gridSize
    (nodeIdx .linear (GridDomain.create (fun _ => 0) (fun _ => 1) (1 / 2) 2) (fun a => (w.bodies (0 : Fin 1)).position q a + t a) s))

theorem exFits {t : Fin 2 → ℚ} {st : SimState exSz ℚ 2 Unit (LawState ℚ) (ForceState ℚ 2)} {τ} (h : exFitsB t st.world = true) :
    WindowsInside (exSolver .linear false) (sceneAt t τ st).world := by
  intro c hc q s hs
  obtain rfl : c = exCoupling .linear := by simpa [exSolver] using hc
  unfold exFitsB at h
  simp only [List.all_eq_true, List.mem_finRange, List.mem_range, decide_eq_true_eq, true_implies] at h
  have := h q s hs
  simp only [sceneAt, bodyAt_position]
  exact this

theorem exFits0 {st : SimState exSz ℚ 2 Unit (LawState ℚ) (ForceState ℚ 2)} (h : exFitsB (fun _ => 0) st.world = true) :
    WindowsInside (exSolver .linear false) st.world := by
  have := exFits (τ := fun _ s => s) h
  simpa only [sceneAt, bodyAt_zero] using this

/-- The example scene one cell further right: all points at once, whatever they do. -/
example : uslCall ratFns (exSolver .linear false) (sceneAt ![1 / 2, 0] Fin.elim0 exState) =
    (uslCall ratFns (exSolver .linear false) exState).map (sceneAt ![1 / 2, 0] Fin.elim0) := by
  refine whole_cells (.inl rfl) (ex_grids _ _) (fun _ => .elastic _ _ _) ?_ ?_ (fun d => Fin.elim0 d) ratFns (exFits0 ?_) (exFits ?_)
  · intro f hf
    rw [exSolver_forces, List.mem_singleton] at hf; subst hf; exact .gravity _ _ _ _
  · intro g d
    fin_cases d
    · exact ⟨1, by simp [exSolver, GridDomain.create]⟩
    · exact ⟨0, by simp⟩
  · decide +kernel
  · decide +kernel

set_option maxRecDepth 100000 in
/-- **C158** An eighth of a unit (a quarter of a cell) is not a whole cell: the velocities come out differently. -/
theorem part_of_cell_matters :
    probe (uslCall ratFns (exSolver .linear false) exState) (0 : Fin 1) (fun s => s.velocity (0 : Fin 2) 1) ≠
    probe (uslCall ratFns (exSolver .linear false) (sceneAt ![1 / 8, 0] Fin.elim0 exState)) (0 : Fin 1) (fun s => s.velocity (0 : Fin 2) 1) := by
  decide +kernel

set_option maxRecDepth 100000 in
theorem exRun1_fits : checkOk (runSteps (uslCall ratFns (exSolver .linear false)) 1 exState)
    (fun s => exFitsB (fun _ => 0) s.world && exFitsB ![1 / 2, 0] s.world) = true := by decide +kernel

/-- Two steps of the example scene, seen by an observer who moves by one cell per step. -/
example : ∃ st', runSteps (uslCall ratFns (exSolver .linear false)) 2 exState = .ok st' ∧
    runSteps (uslCall ratFns (exSolver .linear false)) 2 (seenMoving ![50, 0] Fin.elim0 exState) =
      .ok (sceneAt (fun a => (2 : ℕ) * (1 / 100) * (![50, 0] : Fin 2 → ℚ) a) (fun d => Fin.elim0 d) (seenMoving ![50, 0] Fin.elim0 st')) := by
  obtain ⟨st', h⟩ := isOk_ok exRun2_ok
  refine ⟨st', h, ?_⟩
  refine (galilean_run_partial (τ := fun d => Fin.elim0 d) (Q := fun d => Fin.elim0 d) (.inl rfl) (ex_grids _ _) (fun _ => .elastic _ _ _) ?_ ?_
    (fun d => Fin.elim0 d) (fun d => Fin.elim0 d) ?_ 2 h ?_).1
  · intro f hf
    rw [exSolver_forces, List.mem_singleton] at hf; subst hf; exact .gravity _ _ _ _
  · intro g d
    fin_cases d
    · exact ⟨1, by norm_num [exSolver, GridDomain.create, exState]⟩
    · exact ⟨0, by simp⟩
  · intro p
    exact ⟨⟨exCoupling .linear, by simp [exSolver], rfl, Subsingleton.elim (α := Fin 1) _ _⟩, _, rfl⟩
  · intro i hi si hs
    refine ⟨exAlong i hi si hs, ?_⟩
    obtain rfl | rfl : i = 0 ∨ i = 1 := by omega
    · obtain rfl : exState = si := by simpa [runSteps] using hs
      refine ⟨exFits0 (by decide +kernel), ?_⟩
      have e : (fun a => ((0 : ℕ) : ℚ) * exState.dt * (![50, 0] : Fin 2 → ℚ) a) = fun _ => 0 := by funext a; simp
      rw [e]
      exact exFits (by decide +kernel)
    · have hb := checkOk_ok exRun1_fits si hs
      rw [Bool.and_eq_true] at hb
      refine ⟨exFits0 hb.1, ?_⟩
      have e : (fun a => ((1 : ℕ) : ℚ) * exState.dt * (![50, 0] : Fin 2 → ℚ) a) = ![1 / 2, 0] := by
        funext a; fin_cases a <;> norm_num [exState]
      rw [e]
      exact exFits hb.2

end Hydrax
