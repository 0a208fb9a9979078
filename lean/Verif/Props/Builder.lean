import Verif.Model.Builder
import Mathlib.Tactic.Linarith
import Mathlib.Tactic.NormNum
import Mathlib.Data.Rat.Defs

/-!
# The scene builder (C27, C52, C53, C54)
-/

set_option linter.unusedSectionVars false

namespace Hydrax

section
variable {K : Type*} [Field K] {dim : ℕ} {G P L LS S SS D C : Type*}

/-- A call of a builder method. -/
inductive BOp (K : Type*) (dim : ℕ) (G P L LS S SS D C : Type*)
  | grid (g : G)
  | points (p : P)
  | law (l : L) (state : Option LS) (density : Option D)
  | sdf (l : S) (centre : Option C) (state : Option SS)
  | couple (p g c : Option ℤ)
  | gravity (v : Fin dim → K) (gs ps : Option (List ℤ)) (onGrid : Bool)
  | damping (alpha : K) (gs ps : Option (List ℤ)) (onGrid : Bool)
  | contact (actor receiver : ℕ) (friction : K)
  | collider (sdf : Option ℤ) (gs : Option (List ℤ)) (friction gap : K)
  | solver (scheme : List Char) (bs fs sdfs : Option (List ℤ))

/-- The effect and the returned index of a call. -/
def applyOp (env : BuildEnv P L LS S SS D C) (b : Builder K dim G P L LS S SS) :
    BOp K dim G P L LS S SS D C → Except PyErr (Builder K dim G P L LS S SS × ℕ)
  | .grid g => .ok (b.addGrid g)
  | .points p => .ok (b.addPoints p)
  | .law l st d => b.addLaw env l st d
  | .sdf l c st => b.addSdf env l c st
  | .couple p g c => b.couple env p g c
  | .gravity v gs ps on => .ok (b.addGravity v gs ps on)
  | .damping a gs ps on => .ok (b.addDamping a gs ps on)
  | .contact a r f => .ok (b.addContact a r f)
  | .collider s gs f gap => .ok (b.addCollider s gs f gap)
  | .solver n bs fs sdfs => b.setSolver env n bs fs sdfs

/-- A sequence of successful calls. -/
def runOps (env : BuildEnv P L LS S SS D C) (b : Builder K dim G P L LS S SS) :
    List (BOp K dim G P L LS S SS D C) → Except PyErr (Builder K dim G P L LS S SS)
  | [] => .ok b
  | op :: ops => andThen (applyOp env b op) fun r => runOps env r.1 ops

/-- Nothing is removed or changed between two builders. -/
structure Spec.Extends (b b' : Builder K dim G P L LS S SS) : Prop where
  particles : b.particles <+: b'.particles
  sdfStates : b.sdfStates <+: b'.sdfStates
  sdfLogics : b.sdfLogics <+: b'.sdfLogics
  forceStates : b.forceStates <+: b'.forceStates
  lawStates : b.lawStates <+: b'.lawStates
  solverStates : b.solverStates <+: b'.solverStates
  grids : b.grids <+: b'.grids
  solvers : b.solvers <+: b'.solvers
  couplings : b.couplings <+: b'.couplings
  forces : b.forces <+: b'.forces
  laws : b.laws <+: b'.laws

theorem Spec.Extends.refl (b : Builder K dim G P L LS S SS) : Spec.Extends b b :=
  ⟨List.prefix_rfl, List.prefix_rfl, List.prefix_rfl, List.prefix_rfl, List.prefix_rfl, List.prefix_rfl,
   List.prefix_rfl, List.prefix_rfl, List.prefix_rfl, List.prefix_rfl, List.prefix_rfl⟩

theorem Spec.Extends.trans {a b c : Builder K dim G P L LS S SS} (h : Spec.Extends a b) (h' : Spec.Extends b c) :
    Spec.Extends a c :=
  ⟨h.1.trans h'.1, h.2.trans h'.2, h.3.trans h'.3, h.4.trans h'.4, h.5.trans h'.5, h.6.trans h'.6,
   h.7.trans h'.7, h.8.trans h'.8, h.9.trans h'.9, h.10.trans h'.10, h.11.trans h'.11⟩

/-- States and logics of laws and obstacles are added together. -/
structure Builder.Sync (b : Builder K dim G P L LS S SS) : Prop where
  laws : b.laws.length = b.lawStates.length
  sdfs : b.sdfLogics.length = b.sdfStates.length

theorem andThen_inv {α β : Type*} {x : Except PyErr α} {f : α → Except PyErr β} {r : β} (h : andThen x f = .ok r) :
    ∃ a, x = .ok a ∧ f a = .ok r := by
  cases x with
  | error e => simp [andThen] at h
  | ok a => exact ⟨a, rfl, h⟩

variable (env : BuildEnv P L LS S SS D C)

theorem applyOp_extends (b b' : Builder K dim G P L LS S SS) (op : BOp K dim G P L LS S SS D C) (h : ℕ)
    (hop : applyOp env b op = .ok (b', h)) : Spec.Extends b b' ∧ (b.Sync → b'.Sync) := by
  have R := Spec.Extends.refl b
  cases op with
  | grid g =>
    obtain ⟨rfl, -⟩ := Prod.mk.inj (Except.ok.inj hop)
    exact ⟨{ R with grids := List.prefix_append _ _ }, fun s => ⟨s.1, s.2⟩⟩
  | points p =>
    obtain ⟨rfl, -⟩ := Prod.mk.inj (Except.ok.inj hop)
    exact ⟨{ R with particles := List.prefix_append _ _ }, fun s => ⟨s.1, s.2⟩⟩
  | law l st d =>
    obtain ⟨x, -, hx⟩ := andThen_inv hop
    obtain ⟨rfl, -⟩ := Prod.mk.inj (Except.ok.inj hx)
    exact ⟨{ R with laws := List.prefix_append _ _, lawStates := List.prefix_append _ _ },
      fun s => ⟨by simp [s.1], s.2⟩⟩
  | sdf l c st =>
    obtain ⟨x, -, hx⟩ := andThen_inv hop
    split_ifs at hx with hl
    obtain ⟨rfl, -⟩ := Prod.mk.inj (Except.ok.inj hx)
    exact ⟨{ R with sdfLogics := List.prefix_append _ _, sdfStates := List.prefix_append _ _ },
      fun s => ⟨s.1, by simp [s.2]⟩⟩
  | couple p g c =>
    obtain ⟨x, -, hx⟩ := andThen_inv hop
    obtain ⟨y, -, hy⟩ := andThen_inv hx
    obtain ⟨rfl, -⟩ := Prod.mk.inj (Except.ok.inj hy)
    exact ⟨{ R with couplings := List.prefix_append _ _ }, fun s => ⟨s.1, s.2⟩⟩
  | gravity v gs ps on =>
    obtain ⟨rfl, -⟩ := Prod.mk.inj (Except.ok.inj hop)
    exact ⟨{ R with forces := List.prefix_append _ _, forceStates := List.prefix_append _ _ }, fun s => ⟨s.1, s.2⟩⟩
  | damping a gs ps on =>
    obtain ⟨rfl, -⟩ := Prod.mk.inj (Except.ok.inj hop)
    exact ⟨{ R with forces := List.prefix_append _ _, forceStates := List.prefix_append _ _ }, fun s => ⟨s.1, s.2⟩⟩
  | contact a r f =>
    obtain ⟨rfl, -⟩ := Prod.mk.inj (Except.ok.inj hop)
    exact ⟨{ R with forces := List.prefix_append _ _, forceStates := List.prefix_append _ _ }, fun s => ⟨s.1, s.2⟩⟩
  | collider s gs f gap =>
    obtain ⟨rfl, -⟩ := Prod.mk.inj (Except.ok.inj hop)
    exact ⟨{ R with forces := List.prefix_append _ _ }, fun s => ⟨s.1, s.2⟩⟩
  | solver n bs fs sdfs =>
    obtain ⟨_, -, h1⟩ := andThen_inv hop
    obtain ⟨_, -, h2⟩ := andThen_inv h1
    obtain ⟨_, -, h3⟩ := andThen_inv h2
    obtain ⟨_, -, h4⟩ := andThen_inv h3
    obtain ⟨_, -, h5⟩ := andThen_inv h4
    simp only [] at h5
    split_ifs at h5
    obtain ⟨_, -, h6⟩ := andThen_inv h5
    obtain ⟨rfl, -⟩ := Prod.mk.inj (Except.ok.inj h6)
    exact ⟨{ R with solverStates := List.prefix_append _ _, solvers := List.prefix_append _ _ }, fun s => ⟨s.1, s.2⟩⟩

theorem runOps_extends (ops : List (BOp K dim G P L LS S SS D C)) (b b' : Builder K dim G P L LS S SS)
    (h : runOps env b ops = .ok b') : Spec.Extends b b' ∧ (b.Sync → b'.Sync) := by
  induction ops generalizing b with
  | nil => exact Except.ok.inj h ▸ ⟨Spec.Extends.refl b, id⟩
  | cons op ops ih =>
    obtain ⟨⟨b1, k⟩, h1, h2⟩ := andThen_inv h
    obtain ⟨e1, s1⟩ := applyOp_extends env b b1 op k h1
    obtain ⟨e2, s2⟩ := ih b1 h2
    exact ⟨e1.trans e2, fun s => s2 (s1 s)⟩

/-! ### C52: handles -/

/-- What the index returned by a call must refer to in a later builder `b'`; `b` is the builder at the time of the call. -/
def Spec.Refers (env : BuildEnv P L LS S SS D C) (b b' : Builder K dim G P L LS S SS) (h : ℕ) :
    BOp K dim G P L LS S SS D C → Prop
  | .grid g => b'.grids[h]? = some g
  | .points p => b'.particles[h]? = some p
  | .law l st d => b'.laws[h]? = some l ∧ ∃ x, lawStateFor env l st d = .ok x ∧ b'.lawStates[h]? = some x
  | .sdf l c st => b'.sdfLogics[h]? = some l ∧ ∃ x, sdfStateFor env l c st = .ok x ∧ b'.sdfStates[h]? = some x
  | .couple p g c => ∃ cp, b'.couplings[h]? = some cp ∧ (∀ i, p = some i → cp.p = i) ∧ (∀ i, g = some i → cp.g = i) ∧
      (p = none → cp.p = b.particles.length - 1) ∧ (g = none → cp.g = b.grids.length - 1) ∧
      (cp.skip = false → cp.c = some (c.getD (b.laws.length - 1)))
  | .gravity _ gs ps on => b'.forces[h]? =
      some (.gravity on (gs.getD (allIdx b.grids.length)) (ps.getD (allIdx b.particles.length)) h)
  | .damping _ gs ps on => b'.forces[h]? =
      some (.damping on (gs.getD (allIdx b.grids.length)) (ps.getD (allIdx b.particles.length)) h)
  | .contact a r f => b'.forces[h]? = some (.contact a r f)
  | .collider s gs _ gap => ∃ μ, b'.forces[h]? =
      some (.collider (s.getD (b.sdfStates.length - 1)) (gs.getD (allIdx b.grids.length)) gap μ)
  | .solver n _ _ _ => ∃ s, b'.solvers[h]? = some s ∧ (s.aflip = true ↔ n.map Char.toLower = ['u', 's', 'l', '_', 'a', 'f', 'l', 'i', 'p'])

theorem getElem?_prefix {α : Type*} {l l' : List α} (h : l <+: l') {i : ℕ} {a : α} (hi : l[i]? = some a) :
    l'[i]? = some a := by
  obtain ⟨t, rfl⟩ := h
  have : i < l.length := by
    by_contra hc
    rw [List.getElem?_eq_none (by omega)] at hi
    cases hi
  rw [List.getElem?_append_left this]
  exact hi

theorem getElem?_last {α : Type*} (l : List α) (a : α) : (l ++ [a])[l.length]? = some a := by simp

/-- **C52**: after any sequence of calls on a new builder, the index returned by a call refers to the object added by that
call, and continues to do so after any further sequence of calls. -/
theorem handles_stay_valid (ops ops' : List (BOp K dim G P L LS S SS D C)) (op : BOp K dim G P L LS S SS D C)
    (b b1 b2 : Builder K dim G P L LS S SS) (h : ℕ) (hb : runOps env {} ops = .ok b)
    (hop : applyOp env b op = .ok (b1, h)) (h2 : runOps env b1 ops' = .ok b2) : Spec.Refers env b b2 h op := by
  have sync := (runOps_extends env ops {} b hb).2 ⟨rfl, rfl⟩
  obtain ⟨ext, -⟩ := runOps_extends env ops' b1 b2 h2
  cases op with
  | grid g =>
    obtain ⟨rfl, rfl⟩ := Prod.mk.inj (Except.ok.inj hop)
    exact getElem?_prefix ext.grids (getElem?_last _ _)
  | points p =>
    obtain ⟨rfl, rfl⟩ := Prod.mk.inj (Except.ok.inj hop)
    exact getElem?_prefix ext.particles (getElem?_last _ _)
  | law l st d =>
    obtain ⟨x, hs, hx⟩ := andThen_inv hop
    obtain ⟨rfl, rfl⟩ := Prod.mk.inj (Except.ok.inj hx)
    refine ⟨getElem?_prefix ext.laws (getElem?_last _ _), x, hs, getElem?_prefix ext.lawStates ?_⟩
    simp only [sync.laws]
    exact getElem?_last _ _
  | sdf l c st =>
    obtain ⟨x, hs, hx⟩ := andThen_inv hop
    split_ifs at hx with hl
    obtain ⟨rfl, rfl⟩ := Prod.mk.inj (Except.ok.inj hx)
    refine ⟨getElem?_prefix ext.sdfLogics (getElem?_last _ _), x, hs, getElem?_prefix ext.sdfStates ?_⟩
    simp only [sync.sdfs]
    exact getElem?_last _ _
  | couple p g c =>
    obtain ⟨x, -, hx⟩ := andThen_inv hop
    obtain ⟨y, -, hy⟩ := andThen_inv hx
    obtain ⟨rfl, rfl⟩ := Prod.mk.inj (Except.ok.inj hy)
    refine ⟨_, getElem?_prefix ext.couplings (getElem?_last _ _), ?_, ?_, ?_, ?_, ?_⟩
    · rintro i rfl; rfl
    · rintro i rfl; rfl
    · rintro rfl; rfl
    · rintro rfl; rfl
    · intro hs
      simp only [] at hs
      simp only [hs, Bool.false_eq_true, if_false]
  | gravity v gs ps on =>
    obtain ⟨rfl, rfl⟩ := Prod.mk.inj (Except.ok.inj hop)
    exact getElem?_prefix ext.forces (getElem?_last _ _)
  | damping a gs ps on =>
    obtain ⟨rfl, rfl⟩ := Prod.mk.inj (Except.ok.inj hop)
    exact getElem?_prefix ext.forces (getElem?_last _ _)
  | contact a r f =>
    obtain ⟨rfl, rfl⟩ := Prod.mk.inj (Except.ok.inj hop)
    exact getElem?_prefix ext.forces (getElem?_last _ _)
  | collider s gs f gap =>
    obtain ⟨rfl, rfl⟩ := Prod.mk.inj (Except.ok.inj hop)
    exact ⟨1, getElem?_prefix ext.forces (getElem?_last _ _)⟩
  | solver n bs fs sdfs =>
    obtain ⟨_, -, h1⟩ := andThen_inv hop
    obtain ⟨_, -, h2⟩ := andThen_inv h1
    obtain ⟨_, -, h3⟩ := andThen_inv h2
    obtain ⟨_, -, h4⟩ := andThen_inv h3
    obtain ⟨_, -, h5⟩ := andThen_inv h4
    simp only [] at h5
    split_ifs at h5
    obtain ⟨_, -, h6⟩ := andThen_inv h5
    obtain ⟨rfl, rfl⟩ := Prod.mk.inj (Except.ok.inj h6)
    exact ⟨_, getElem?_prefix ext.solvers (getElem?_last _ _), by simp⟩

/-! ### C53: force states -/

/-- Whether a call adds a collider. -/
def BOp.isCollider : BOp K dim G P L LS S SS D C → Bool
  | .collider .. => true
  | _ => false

theorem applyOp_forces (b b' : Builder K dim G P L LS S SS) (op : BOp K dim G P L LS S SS D C) (h : ℕ)
    (hop : applyOp env b op = .ok (b', h)) :
    (b'.forces.length : ℤ) - b'.forceStates.length =
      b.forces.length - b.forceStates.length + if op.isCollider then 1 else 0 := by
  cases op with
  | law l st d =>
    obtain ⟨x, -, hx⟩ := andThen_inv hop
    obtain ⟨rfl, -⟩ := Prod.mk.inj (Except.ok.inj hx)
    simp [BOp.isCollider]
  | sdf l c st =>
    obtain ⟨x, -, hx⟩ := andThen_inv hop
    split_ifs at hx with hl
    obtain ⟨rfl, -⟩ := Prod.mk.inj (Except.ok.inj hx)
    simp [BOp.isCollider]
  | couple p g c =>
    obtain ⟨x, -, hx⟩ := andThen_inv hop
    obtain ⟨y, -, hy⟩ := andThen_inv hx
    obtain ⟨rfl, -⟩ := Prod.mk.inj (Except.ok.inj hy)
    simp [BOp.isCollider]
  | solver n bs fs sdfs =>
    obtain ⟨_, -, h1⟩ := andThen_inv hop
    obtain ⟨_, -, h2⟩ := andThen_inv h1
    obtain ⟨_, -, h3⟩ := andThen_inv h2
    obtain ⟨_, -, h4⟩ := andThen_inv h3
    obtain ⟨_, -, h5⟩ := andThen_inv h4
    simp only [] at h5
    split_ifs at h5
    obtain ⟨_, -, h6⟩ := andThen_inv h5
    obtain ⟨rfl, -⟩ := Prod.mk.inj (Except.ok.inj h6)
    simp [BOp.isCollider]
  | _ =>
    obtain ⟨rfl, -⟩ := Prod.mk.inj (Except.ok.inj hop)
    simp [BOp.isCollider, Builder.addGrid, Builder.addPoints, Builder.addGravity, Builder.addDamping, Builder.addContact,
      Builder.addCollider] <;> ring

theorem runOps_forces (ops : List (BOp K dim G P L LS S SS D C)) (b b' : Builder K dim G P L LS S SS)
    (h : runOps env b ops = .ok b') :
    (b'.forces.length : ℤ) - b'.forceStates.length =
      b.forces.length - b.forceStates.length + (ops.countP BOp.isCollider : ℤ) := by
  induction ops generalizing b with
  | nil => rw [← Except.ok.inj h]; simp
  | cons op ops ih =>
    obtain ⟨⟨b1, k⟩, h1, h2⟩ := andThen_inv h
    rw [ih b1 h2, applyOp_forces env b b1 op k h1, List.countP_cons]
    push_cast
    ring

/-- **C53**, what actually holds: the state of a gravity or damping force added after `m` colliders is at its stored index
minus `m`, after any further calls. -/
theorem force_state_shifted (ops ops' : List (BOp K dim G P L LS S SS D C)) (v : Fin dim → K)
    (gs ps : Option (List ℤ)) (on : Bool) (b b1 b2 : Builder K dim G P L LS S SS) (h : ℕ)
    (hb : runOps env {} ops = .ok b) (hop : applyOp env b (.gravity v gs ps on) = .ok (b1, h))
    (h2 : runOps env b1 ops' = .ok b2) :
    (∃ gs' ps', b2.forces[h]? = some (.gravity on gs' ps' h)) ∧ ops.countP BOp.isCollider ≤ h ∧
    b2.forceStates[h - ops.countP BOp.isCollider]? = some (.gravity v) := by
  have e := runOps_forces env ops {} b hb
  simp only [List.length_nil, Nat.cast_zero, sub_zero, zero_add] at e
  obtain ⟨ext, -⟩ := runOps_extends env ops' b1 b2 h2
  refine ⟨⟨_, _, handles_stay_valid env ops ops' _ b b1 b2 h hb hop h2⟩, ?_⟩
  obtain ⟨rfl, rfl⟩ := Prod.mk.inj (Except.ok.inj hop)
  refine ⟨by omega, getElem?_prefix ext.forceStates ?_⟩
  have : b.forces.length - ops.countP BOp.isCollider = b.forceStates.length := by omega
  rw [this]
  exact getElem?_last _ _

/-- The same for damping. -/
theorem damping_state_shifted (ops ops' : List (BOp K dim G P L LS S SS D C)) (a : K)
    (gs ps : Option (List ℤ)) (on : Bool) (b b1 b2 : Builder K dim G P L LS S SS) (h : ℕ)
    (hb : runOps env {} ops = .ok b) (hop : applyOp env b (.damping a gs ps on) = .ok (b1, h))
    (h2 : runOps env b1 ops' = .ok b2) :
    (∃ gs' ps', b2.forces[h]? = some (.damping on gs' ps' h)) ∧ ops.countP BOp.isCollider ≤ h ∧
    b2.forceStates[h - ops.countP BOp.isCollider]? = some (.damping a) := by
  have e := runOps_forces env ops {} b hb
  simp only [List.length_nil, Nat.cast_zero, sub_zero, zero_add] at e
  obtain ⟨ext, -⟩ := runOps_extends env ops' b1 b2 h2
  refine ⟨⟨_, _, handles_stay_valid env ops ops' _ b b1 b2 h hb hop h2⟩, ?_⟩
  obtain ⟨rfl, rfl⟩ := Prod.mk.inj (Except.ok.inj hop)
  refine ⟨by omega, getElem?_prefix ext.forceStates ?_⟩
  have : b.forces.length - ops.countP BOp.isCollider = b.forceStates.length := by omega
  rw [this]
  exact getElem?_last _ _

/-- **C53** (partial): a force added before any collider finds its own state, whatever is added later. -/
theorem force_state_partial (ops ops' : List (BOp K dim G P L LS S SS D C)) (hno : ops.countP BOp.isCollider = 0)
    (gs ps : Option (List ℤ)) (on : Bool) (b b1 b2 : Builder K dim G P L LS S SS) (h : ℕ)
    (hb : runOps env {} ops = .ok b) (h2 : runOps env b1 ops' = .ok b2) :
    (∀ v, applyOp env b (.gravity v gs ps on) = .ok (b1, h) → getGravity b2.forceStates h = .ok v) ∧
    (∀ a, applyOp env b (.damping a gs ps on) = .ok (b1, h) → getDamping b2.forceStates h = .ok a) := by
  constructor
  · intro v hop
    have := (force_state_shifted env ops ops' v gs ps on b b1 b2 h hb hop h2).2.2
    rw [hno, Nat.sub_zero] at this
    simp only [getGravity, this]
  · intro a hop
    have := (damping_state_shifted env ops ops' a gs ps on b b1 b2 h hb hop h2).2.2
    rw [hno, Nat.sub_zero] at this
    simp only [getDamping, this]

/-- **C53** (refuted): a gravity force added after a collider, as the last force, finds no state at all; the first step
raises `IndexError`. -/
theorem gravity_after_collider_fails (ops : List (BOp K dim G P L LS S SS D C)) (v : Fin dim → K)
    (gs ps : Option (List ℤ)) (on : Bool) (b b1 : Builder K dim G P L LS S SS) (h : ℕ)
    (hcol : 0 < ops.countP BOp.isCollider)
    (hb : runOps env {} ops = .ok b) (hop : applyOp env b (.gravity v gs ps on) = .ok (b1, h)) :
    getGravity b1.forceStates h = .error .indexError := by
  have e := runOps_forces env ops {} b hb
  simp only [List.length_nil, Nat.cast_zero, sub_zero, zero_add] at e
  obtain ⟨rfl, rfl⟩ := Prod.mk.inj (Except.ok.inj hop)
  have : (b.addGravity v gs ps on).1.forceStates[b.forces.length]? = none := by
    rw [List.getElem?_eq_none]
    simp only [Builder.addGravity, List.length_append, List.length_singleton]
    omega
  unfold getGravity
  change (match (b.addGravity v gs ps on).1.forceStates[b.forces.length]? with
    | .none => _ | some (.gravity g) => _ | some _ => _) = _
  rw [this]

/-- **C53** (refuted): with one collider and two gravity forces, the first of them uses the vector of the second. -/
theorem gravity_uses_other_state (v w : Fin dim → K) (b : Builder K dim G P L LS S SS)
    (hb : runOps env {} [.collider none none 0 0, .gravity v none none true, .gravity w none none true] = .ok b) :
    (∃ gs ps, b.forces[1]? = some (.gravity true gs ps 1)) ∧ getGravity b.forceStates 1 = .ok w := by
  have := Except.ok.inj hb
  subst this
  exact ⟨⟨_, _, rfl⟩, rfl⟩

/-! ### C27: colliders -/

/-- **C27** (partial): the collider is attached to the requested obstacle and grids, with the requested gap. -/
theorem collider_attached_partial (b : Builder K dim G P L LS S SS) (sdf : ℤ) (gs : List ℤ) (friction gap : K) :
    ∃ μ, (b.addCollider (some sdf) (some gs) friction gap).1.forces[(b.addCollider (some sdf) (some gs) friction gap).2]? =
      some (.collider sdf gs gap μ) := ⟨1, getElem?_last _ _⟩

/-- **C27** (refuted): the friction given is ignored; the collider always has base friction 1. -/
theorem collider_friction_ignored (b : Builder K dim G P L LS S SS) (sdf : Option ℤ) (gs : Option (List ℤ))
    (friction gap : K) :
    ∃ s g, (b.addCollider sdf gs friction gap).1.forces[(b.addCollider sdf gs friction gap).2]? =
      some (.collider s g gap 1) := ⟨_, _, getElem?_last _ _⟩

/-- Without an obstacle the default index is -1, which switches the collider off. -/
theorem collider_default_obstacle (b : Builder K dim G P L LS S SS) (hb : b.sdfStates = []) (friction gap : K) :
    ∃ g, (b.addCollider none none friction gap).1.forces[(b.addCollider none none friction gap).2]? =
      some (.collider (-1) g gap 1) := by
  refine ⟨allIdx b.grids.length, ?_⟩
  have := getElem?_last b.forces (mkCollider (sdf := (-1 : ℤ)) (gs := allIdx b.grids.length) (gap := gap))
  simp only [Builder.addCollider, hb, List.length_nil, Option.getD_none, Nat.cast_zero, zero_sub]
  exact this

/-! ### C54: what the solver uses -/

theorem mapExc_length {α β : Type*} (f : α → Except PyErr β) (l : List α) (r : List β) (h : mapExc f l = .ok r) :
    r.length = l.length := by
  induction l generalizing r with
  | nil => rw [← Except.ok.inj h]; rfl
  | cons a as ih =>
    obtain ⟨x, -, h1⟩ := andThen_inv h
    obtain ⟨y, h2, h3⟩ := andThen_inv h1
    rw [← Except.ok.inj h3, List.length_cons, List.length_cons, ih y h2]

theorem mapExc_get {α β : Type*} (f : α → Except PyErr β) (l : List α) (r : List β) (h : mapExc f l = .ok r) (i : ℕ) (a : α)
    (hi : l[i]? = some a) : ∃ x, r[i]? = some x ∧ f a = .ok x := by
  induction l generalizing r i with
  | nil => simp at hi
  | cons c as ih =>
    obtain ⟨x, hx, h1⟩ := andThen_inv h
    obtain ⟨y, h2, h3⟩ := andThen_inv h1
    rw [← Except.ok.inj h3]
    cases i with
    | zero =>
      simp only [List.getElem?_cons_zero, Option.some.injEq] at hi ⊢
      subst hi
      exact ⟨x, rfl, hx⟩
    | succ i => simpa using ih y h2 i (by simpa using hi)

theorem pyGet_ok {α : Type*} {l : List α} {i : ℤ} {a : α} (h : pyGet l i = .ok a) :
    ∃ j : ℕ, l[j]? = some a ∧ ∀ (β : Type _) (l' : List β), l'.length = l.length → pyGet l' i =
      match l'[j]? with | some x => .ok x | none => .error .indexError := by
  unfold pyGet at h
  simp only [] at h
  split_ifs at h with h1 h2 h3
  · refine ⟨(i + l.length).toNat, ?_, fun β l' hl => ?_⟩
    · revert h
      cases l[(i + l.length).toNat]? with
      | none => intro h; cases h
      | some x => intro h; rw [Except.ok.inj h]
    · unfold pyGet
      simp only [h1, if_true, hl, if_neg h2]
      cases l'[(i + l.length).toNat]? <;> rfl
  · refine ⟨i.toNat, ?_, fun β l' hl => ?_⟩
    · revert h
      cases l[i.toNat]? with
      | none => intro h; cases h
      | some x => intro h; rw [Except.ok.inj h]
    · unfold pyGet
      simp only [h1, if_false]
      cases l'[i.toNat]? <;> rfl

/-- What a successful `set_solver` puts into the new solver. -/
theorem setSolver_spec (b b' : Builder K dim G P L LS S SS) (n : List Char) (bs fs sdfs : Option (List ℤ)) (h : ℕ)
    (hop : b.setSolver env n bs fs sdfs = .ok (b', h)) :
    ∃ s : BSolver K G L S, ∃ st, b'.solvers[h]? = some s ∧
      mapExc (pyGet b.couplings) (bs.getD (allIdx b.couplings.length)) = .ok s.couplings ∧
      mapExc (pyGet b.sdfLogics) (sdfs.getD (allIdx b.sdfLogics.length)) = .ok s.sdfs ∧
      mapExc (fun c => pyGet b.grids c.g) s.couplings = .ok s.grids ∧
      mapExc (fun c : BCoupling => match c.c with
        | none => .ok none
        | some i => (pyGet b.laws i).map some) s.couplings = .ok s.laws ∧
      mapExc (fun c : BCoupling => andThen (pyGet b.particles c.p) fun mp =>
        .ok (if env.rigid mp then none else some (mp, s.aflip))) s.couplings = .ok st ∧
      b' = { b with solverStates := b.solverStates ++ st, solvers := b.solvers ++ [s] } := by
  obtain ⟨cs, e1, h1⟩ := andThen_inv hop
  obtain ⟨fo, -, h2⟩ := andThen_inv h1
  obtain ⟨lo, e3, h3⟩ := andThen_inv h2
  obtain ⟨gr, e4, h4⟩ := andThen_inv h3
  obtain ⟨la, e5, h5⟩ := andThen_inv h4
  simp only [] at h5
  split_ifs at h5
  obtain ⟨st, e6, h6⟩ := andThen_inv h5
  obtain ⟨rfl, rfl⟩ := Prod.mk.inj (Except.ok.inj h6)
  exact ⟨_, st, getElem?_last _ _, e1, e3, e4, e5, e6, rfl⟩

/-- **C54**, what actually holds for grids: the coupling is given the grid of the coupling that stands at position `g_idx`
in the solver. -/
theorem grid_used (b b' : Builder K dim G P L LS S SS) (n : List Char) (bs fs sdfs : Option (List ℤ)) (h : ℕ)
    (hop : b.setSolver env n bs fs sdfs = .ok (b', h)) :
    ∃ s, b'.solvers[h]? = some s ∧ ∀ c, s.gridOf c = andThen (pyGet s.couplings c.g) fun c' => pyGet b.grids c'.g := by
  obtain ⟨s, st, hs, -, -, hg, -, -, -⟩ := setSolver_spec env b b' n bs fs sdfs h hop
  refine ⟨s, hs, fun c => ?_⟩
  unfold BSolver.gridOf
  have hl := mapExc_length _ _ _ hg
  cases hc : pyGet s.couplings c.g with
  | error e =>
    have he : e = .indexError := by
      unfold pyGet at hc
      simp only [] at hc
      split_ifs at hc <;> first | exact (Except.error.inj hc).symm | skip
      all_goals (split at hc <;> first | exact (Except.error.inj hc).symm | cases hc)
    subst he
    simp only [andThen]
    unfold pyGet at hc ⊢
    simp only [hl] at hc ⊢
    split_ifs at hc ⊢ with a1 a2 a3
    · rfl
    · have : s.couplings[(c.g + (s.couplings.length : ℤ)).toNat]? = none := by
        cases hx : s.couplings[(c.g + (s.couplings.length : ℤ)).toNat]? with
        | none => rfl
        | some x => rw [hx] at hc; cases hc
      rw [List.getElem?_eq_none_iff] at this
      rw [List.getElem?_eq_none_iff.mpr (by omega)]
    · have : s.couplings[c.g.toNat]? = none := by
        cases hx : s.couplings[c.g.toNat]? with
        | none => rfl
        | some x => rw [hx] at hc; cases hc
      rw [List.getElem?_eq_none_iff] at this
      rw [List.getElem?_eq_none_iff.mpr (by omega)]
  | ok c' =>
    obtain ⟨j, hj, hp⟩ := pyGet_ok hc
    obtain ⟨x, hx, hf⟩ := mapExc_get _ _ _ hg j c' hj
    rw [hp _ s.grids hl, hx]
    simp only [andThen]
    exact hf.symm

/-- A selection of couplings in which every index used is also the position of a coupling using that index. -/
def Spec.Aligned (cs : List BCoupling) (idx : BCoupling → Option ℤ) : Prop :=
  ∀ c ∈ cs, ∀ i, idx c = some i → ∃ c', pyGet cs i = .ok c' ∧ idx c' = some i

/-- **C54** (partial): if the couplings of the solver are aligned with the grids, every coupling works on its grid. -/
theorem grid_used_partial (b b' : Builder K dim G P L LS S SS) (n : List Char) (bs fs sdfs : Option (List ℤ)) (h : ℕ)
    (hop : b.setSolver env n bs fs sdfs = .ok (b', h)) :
    ∃ s, b'.solvers[h]? = some s ∧ (Spec.Aligned s.couplings (fun c => some c.g) →
      ∀ c ∈ s.couplings, s.gridOf c = pyGet b.grids c.g) := by
  obtain ⟨s, hs, hg⟩ := grid_used env b b' n bs fs sdfs h hop
  refine ⟨s, hs, fun ha c hc => ?_⟩
  obtain ⟨c', h1, h2⟩ := ha c hc c.g rfl
  rw [hg, h1]
  simp only [andThen]
  rw [Option.some.inj h2]

/-- **C54** (partial): the same for laws; the law state is always that of the registered law. -/
theorem law_used_partial (b b' : Builder K dim G P L LS S SS) (n : List Char) (bs fs sdfs : Option (List ℤ)) (h : ℕ)
    (hop : b.setSolver env n bs fs sdfs = .ok (b', h)) :
    ∃ s, b'.solvers[h]? = some s ∧
      (Spec.Aligned s.couplings BCoupling.c →
        ∀ c ∈ s.couplings, ∀ i, c.c = some i → s.lawOf c = (pyGet b.laws i).map some) ∧
      ∀ c i, c.c = some i → b'.lawStateOf c = pyGet b.lawStates i := by
  obtain ⟨s, st, hs, -, -, -, hla, -, hb'⟩ := setSolver_spec env b b' n bs fs sdfs h hop
  refine ⟨s, hs, fun ha c hc i hi => ?_, fun c i hi => ?_⟩
  · obtain ⟨c', h1, h2⟩ := ha c hc i hi
    have hl := mapExc_length _ _ _ hla
    obtain ⟨j, hj, hp⟩ := pyGet_ok h1
    obtain ⟨x, hx, hf⟩ := mapExc_get _ _ _ hla j c' hj
    unfold BSolver.lawOf
    rw [hi]
    simp only []
    rw [hp _ s.laws hl, hx]
    rw [h2] at hf
    exact hf.symm
  · rw [hb']
    simp only [Builder.lawStateOf, hi]

theorem pyGet_nat {α : Type*} (l : List α) (i : ℕ) (a : α) (h : l[i]? = some a) : pyGet l (i : ℤ) = .ok a := by
  unfold pyGet
  have hi : ¬ ((i : ℤ) < 0) := by omega
  simp only [hi, if_false, Int.toNat_natCast, h]

theorem mapExc_all {α : Type*} (l r : List α) (h : mapExc (pyGet l) (allIdx l.length) = .ok r) : r = l := by
  have hl := mapExc_length _ _ _ h
  simp only [allIdx, List.length_map, List.length_range] at hl
  refine List.ext_getElem? fun i => ?_
  by_cases hi : i < l.length
  · obtain ⟨x, hx, hf⟩ := mapExc_get _ _ _ h i (i : ℤ) (by simp [allIdx, hi])
    rw [pyGet_nat l i l[i] (List.getElem?_eq_getElem hi)] at hf
    rw [hx, List.getElem?_eq_getElem hi, Except.ok.inj hf]
  · rw [List.getElem?_eq_none (by omega), List.getElem?_eq_none (by omega)]

/-- **C54** (partial): if all obstacles are given to the solver (the default), each obstacle logic is paired with the state
registered together with it. -/
theorem sdf_paired_partial (b b' : Builder K dim G P L LS S SS) (n : List Char) (bs fs : Option (List ℤ)) (h : ℕ)
    (hop : b.setSolver env n bs fs none = .ok (b', h)) :
    ∃ s, b'.solvers[h]? = some s ∧ s.sdfs = b.sdfLogics ∧
      ∀ i st, b.sdfStates[i]? = some st → b'.sdfStateOf i = .ok st := by
  obtain ⟨s, st, hs, -, hsd, -, -, -, hb'⟩ := setSolver_spec env b b' n bs fs none h hop
  refine ⟨s, hs, mapExc_all _ _ hsd, fun i x hx => ?_⟩
  rw [hb']
  exact pyGet_nat _ _ _ hx

theorem pyGet_nonneg {α : Type*} (l : List α) (i : ℤ) (a : α) (hi : 0 ≤ i) (h : pyGet l i = .ok a) :
    l[i.toNat]? = some a := by
  unfold pyGet at h
  have : ¬ i < 0 := by omega
  simp only [this, if_false] at h
  split at h
  · rename_i x hx; rw [hx, Except.ok.inj h]
  · cases h

/-- Position and rigidity of the couplings, given at the time of the call. -/
def Builder.Numbered (b : Builder K dim G P L LS S SS) : Prop :=
  ∀ i (c : BCoupling), b.couplings[i]? = some c → (c.skip = false → c.s = some i) ∧
    (0 ≤ c.p → ∃ mp, b.particles[c.p.toNat]? = some mp ∧ env.rigid mp = c.skip)

theorem applyOp_numbered (b b' : Builder K dim G P L LS S SS) (op : BOp K dim G P L LS S SS D C) (h : ℕ)
    (hop : applyOp env b op = .ok (b', h)) (hn : b.Numbered env) : b'.Numbered env := by
  have ext := (applyOp_extends env b b' op h hop).1
  have old : ∀ i (c : BCoupling), b.couplings[i]? = some c → (c.skip = false → c.s = some i) ∧
      (0 ≤ c.p → ∃ mp, b'.particles[c.p.toNat]? = some mp ∧ env.rigid mp = c.skip) := fun i c hc =>
    ⟨(hn i c hc).1, fun h0 => by
      obtain ⟨mp, h1, h2⟩ := (hn i c hc).2 h0
      exact ⟨mp, getElem?_prefix ext.particles h1, h2⟩⟩
  cases op with
  | couple p g c =>
    obtain ⟨mp, e1, hx⟩ := andThen_inv hop
    obtain ⟨y, -, hy⟩ := andThen_inv hx
    obtain ⟨rfl, -⟩ := Prod.mk.inj (Except.ok.inj hy)
    intro i cp hi
    simp only [] at hi
    by_cases hlt : i < b.couplings.length
    · rw [List.getElem?_append_left hlt] at hi
      exact old i cp hi
    · have hie : i = b.couplings.length := by
        by_contra hne
        rw [List.getElem?_eq_none (by simp; omega)] at hi
        cases hi
      subst hie
      rw [getElem?_last] at hi
      rw [← Option.some.inj hi]
      refine ⟨fun hs => ?_, fun h0 => ⟨mp, pyGet_nonneg _ _ _ h0 e1, rfl⟩⟩
      simp only [] at hs
      simp only [hs, Bool.false_eq_true, if_false]
  | law l st d =>
    obtain ⟨x, -, hx⟩ := andThen_inv hop
    obtain ⟨rfl, -⟩ := Prod.mk.inj (Except.ok.inj hx)
    exact old
  | sdf l c st =>
    obtain ⟨x, -, hx⟩ := andThen_inv hop
    split_ifs at hx with hl
    obtain ⟨rfl, -⟩ := Prod.mk.inj (Except.ok.inj hx)
    exact old
  | solver n bs fs sdfs =>
    obtain ⟨s, st, -, -, -, -, -, -, rfl⟩ := setSolver_spec env b b' n bs fs sdfs h hop
    exact old
  | _ =>
    obtain ⟨rfl, -⟩ := Prod.mk.inj (Except.ok.inj hop)
    exact old

theorem runOps_numbered (ops : List (BOp K dim G P L LS S SS D C)) (b b' : Builder K dim G P L LS S SS)
    (h : runOps env b ops = .ok b') (hn : b.Numbered env) : b'.Numbered env := by
  induction ops generalizing b with
  | nil => exact Except.ok.inj h ▸ hn
  | cons op ops ih =>
    obtain ⟨⟨b1, k⟩, h1, h2⟩ := andThen_inv h
    exact ih b1 h2 (applyOp_numbered env b b1 op k h1 hn)

/-- **C54** (partial): with one solver over all couplings (the default), the solver state of every deformable coupling is the
one created for its body by this solver. -/
theorem solver_state_partial (ops : List (BOp K dim G P L LS S SS D C)) (b b' : Builder K dim G P L LS S SS)
    (hb : runOps env {} ops = .ok b) (hns : b.solverStates = [])
    (n : List Char) (fs sdfs : Option (List ℤ)) (h : ℕ) (hop : b.setSolver env n none fs sdfs = .ok (b', h)) :
    ∃ s, b'.solvers[h]? = some s ∧ s.couplings = b.couplings ∧
      ∀ (i : ℕ) (c : BCoupling), b.couplings[i]? = some c → c.skip = false → 0 ≤ c.p →
        ∃ mp, b.particles[c.p.toNat]? = some mp ∧ b'.solverStateOf c = .ok (some (mp, s.aflip)) := by
  obtain ⟨s, st, hs, hcs, -, -, -, hst, hb'⟩ := setSolver_spec env b b' n none fs sdfs h hop
  have hall := mapExc_all _ _ hcs
  have hnum := runOps_numbered env ops {} b hb (fun i c hc => by simp at hc)
  refine ⟨s, hs, hall, fun i c hc hsk h0 => ?_⟩
  obtain ⟨hi, hr⟩ := hnum i c hc
  obtain ⟨mp, hmp, hrig⟩ := hr h0
  refine ⟨mp, hmp, ?_⟩
  rw [hb']
  simp only [Builder.solverStateOf, hi hsk, hns, List.nil_append]
  obtain ⟨x, hx, hf⟩ := mapExc_get _ _ _ hst i c (by rw [hall]; exact hc)
  rw [pyGet_nat _ _ _ hx, ← hf]
  have := pyGet_nat _ _ _ hmp
  rw [Int.toNat_of_nonneg h0] at this
  rw [this]
  simp [andThen, hrig, hsk]

/-- **C54** (refuted): an obstacle selected alone is paired with the state of the first obstacle. -/
theorem sdf_subset_wrong (b b' : Builder K dim G P L LS S SS) (n : List Char) (bs fs : Option (List ℤ)) (h i : ℕ)
    (l : S) (x y : SS) (hl : b.sdfLogics[i]? = some l) (h0 : b.sdfStates[0]? = some x) (hi : b.sdfStates[i]? = some y)
    (hop : b.setSolver env n bs fs (some [(i : ℤ)]) = .ok (b', h)) :
    ∃ s, b'.solvers[h]? = some s ∧ s.sdfs = [l] ∧ b'.sdfStateOf 0 = .ok x ∧ b'.sdfStates[i]? = some y := by
  obtain ⟨s, st, hs, -, hsd, -, -, -, hb'⟩ := setSolver_spec env b b' n bs fs _ h hop
  refine ⟨s, hs, ?_, ?_, ?_⟩
  · simp only [Option.getD_some, mapExc, pyGet_nat _ _ _ hl, andThen] at hsd
    exact (Except.ok.inj hsd).symm
  · rw [hb']; exact pyGet_nat _ _ _ h0
  · rw [hb']; exact hi

end

section
variable {K : Type*} [Field K] {dim : ℕ} {G P L LS S SS D C : Type*} (env : BuildEnv P L LS S SS D C)

/-! ### C72: build -/

/-- Number of solvers set. -/
def BOp.isSolver : BOp K dim G P L LS S SS D C → Bool
  | .solver .. => true
  | _ => false

theorem runOps_solvers (ops : List (BOp K dim G P L LS S SS D C)) (b b' : Builder K dim G P L LS S SS)
    (h : runOps env b ops = .ok b') : b'.solvers.length = b.solvers.length + ops.countP BOp.isSolver := by
  induction ops generalizing b with
  | nil => rw [← Except.ok.inj h]; simp
  | cons op ops ih =>
    obtain ⟨⟨b1, k⟩, h1, h2⟩ := andThen_inv h
    have e : b1.solvers.length = b.solvers.length + if op.isSolver then 1 else 0 := by
      cases op with
      | law l st d =>
        obtain ⟨x, -, hx⟩ := andThen_inv h1
        obtain ⟨rfl, -⟩ := Prod.mk.inj (Except.ok.inj hx)
        simp [BOp.isSolver]
      | sdf l c st =>
        obtain ⟨x, -, hx⟩ := andThen_inv h1
        split_ifs at hx with hl
        obtain ⟨rfl, -⟩ := Prod.mk.inj (Except.ok.inj hx)
        simp [BOp.isSolver]
      | couple p g c =>
        obtain ⟨x, -, hx⟩ := andThen_inv h1
        obtain ⟨y, -, hy⟩ := andThen_inv hx
        obtain ⟨rfl, -⟩ := Prod.mk.inj (Except.ok.inj hy)
        simp [BOp.isSolver]
      | solver n bs fs sdfs =>
        obtain ⟨s, st, -, -, -, -, -, -, rfl⟩ := setSolver_spec env b b1 n bs fs sdfs k h1
        simp [BOp.isSolver]
      | _ =>
        obtain ⟨rfl, -⟩ := Prod.mk.inj (Except.ok.inj h1)
        simp [BOp.isSolver, Builder.addGrid, Builder.addPoints, Builder.addGravity, Builder.addDamping,
          Builder.addContact, Builder.addCollider]
    rw [ih b1 h2, e, List.countP_cons]
    omega

/-- **C72**: `build` keeps every registered body, obstacle, law and force state at the index returned when it was added, with
the requested clock. -/
theorem build_keeps_states (ops : List (BOp K dim G P L LS S SS D C)) (b b1 b2 : Builder K dim G P L LS S SS)
    (op : BOp K dim G P L LS S SS D C) (ops' : List (BOp K dim G P L LS S SS D C)) (h : ℕ)
    (hb : runOps env {} ops = .ok b) (hop : applyOp env b op = .ok (b1, h)) (h2 : runOps env b1 ops' = .ok b2)
    (time dt : K) (step : ℕ) :
    (b2.build time step dt).2.time = time ∧ (b2.build time step dt).2.step = step ∧ (b2.build time step dt).2.dt = dt ∧
    (∀ p, op = .points p → (b2.build time step dt).2.materialPoints[h]? = some p) ∧
    (∀ l st d, op = .law l st d → ∃ x, lawStateFor env l st d = .ok x ∧ (b2.build time step dt).2.laws[h]? = some x) ∧
    (∀ l c st, op = .sdf l c st → ∃ x, sdfStateFor env l c st = .ok x ∧ (b2.build time step dt).2.sdfs[h]? = some x) := by
  have H := handles_stay_valid env ops ops' op b b1 b2 h hb hop h2
  refine ⟨rfl, rfl, rfl, ?_, ?_, ?_⟩
  · rintro p rfl; exact H
  · rintro l st d rfl; exact H.2
  · rintro l c st rfl; exact H.2

/-- **C72**: `build` returns a solver exactly if `set_solver` was called once, and then it is the one made by that call;
otherwise it returns the list of all of them. -/
theorem build_single (ops : List (BOp K dim G P L LS S SS D C)) (b : Builder K dim G P L LS S SS)
    (hb : runOps env {} ops = .ok b) (time dt : K) (step : ℕ) :
    (ops.countP BOp.isSolver = 1 → ∃ s, b.solvers[0]? = some s ∧ (b.build time step dt).1 = .one s) ∧
    (ops.countP BOp.isSolver ≠ 1 → ∃ l, (b.build time step dt).1 = .many l ∧ l.length = ops.countP BOp.isSolver) := by
  have e := runOps_solvers env ops {} b hb
  simp only [List.length_nil, Nat.zero_add] at e
  unfold Builder.build
  rcases hl : b.solvers with _ | ⟨s, _ | ⟨t, l⟩⟩
  · rw [hl] at e
    refine ⟨fun h1 => ?_, fun _ => ⟨[], rfl, e⟩⟩
    simp at e; omega
  · rw [hl] at e
    refine ⟨fun _ => ⟨s, rfl, rfl⟩, fun h1 => ?_⟩
    simp at e; omega
  · rw [hl] at e
    refine ⟨fun h1 => ?_, fun _ => ⟨_, rfl, e⟩⟩
    simp at e; omega

/-- An unknown scheme is not reported as such: `set_solver` fails with `UnboundLocalError`. -/
theorem unknown_scheme (b : Builder K dim G P L LS S SS) (n : List Char) (bs fs sdfs : Option (List ℤ))
    (h1 : n.map Char.toLower ≠ ['u', 's', 'l']) (h2 : n.map Char.toLower ≠ ['u', 's', 'l', '_', 'a', 'f', 'l', 'i', 'p']) :
    ∀ r, b.setSolver env n bs fs sdfs ≠ .ok r := by
  intro r hop
  obtain ⟨_, -, h3⟩ := andThen_inv hop
  obtain ⟨_, -, h3⟩ := andThen_inv h3
  obtain ⟨_, -, h3⟩ := andThen_inv h3
  obtain ⟨_, -, h3⟩ := andThen_inv h3
  obtain ⟨_, -, h3⟩ := andThen_inv h3
  simp only [h1, h2, or_self, if_false] at h3
  cases h3

end

/-! ### Witnesses -/

/-- Objects named by numbers. -/
def exEnv : BuildEnv ℕ ℕ ℕ ℕ ℕ ℕ ℕ :=
  { rigid := fun _ => false
    kind := fun _ => .other
    fromDensity := fun _ _ => .error .typeError
    createSdf := fun _ c => .ok c
    aabbCentre := fun _ => .error .typeError }

/-- Two bodies, two grids, two laws; body 0 on grid 1 with law 1, body 1 on grid 0 with law 0. -/
def exSwapped : List (BOp ℚ 2 ℕ ℕ ℕ ℕ ℕ ℕ ℕ ℕ) :=
  [.grid 100, .grid 101, .points 200, .points 201, .law 300 (some 400) none, .law 301 (some 401) none,
   .couple (some 0) (some 1) (some 1), .couple (some 1) (some 0) (some 0), .solver ['U', 'S', 'L'] none none none]

/-- **C54** (refuted): with crossed couplings, body 0 is computed on the grid and with the law of body 1, but with the law
state registered for its own law. -/
theorem crossed_couplings_wrong : ∃ b s c, runOps exEnv {} exSwapped = .ok b ∧ b.solvers[0]? = some s ∧
    s.couplings[0]? = some c ∧ c.p = 0 ∧ c.g = 1 ∧ c.c = some 1 ∧ b.grids[1]? = some 101 ∧ b.laws[1]? = some 301 ∧
    s.gridOf c = .ok 100 ∧ s.lawOf c = .ok (some 300) ∧ b.lawStateOf c = .ok (some 401) :=
  ⟨_, _, _, rfl, rfl, rfl, rfl, rfl, rfl, rfl, rfl, rfl, rfl, rfl⟩

/-- A single body on the second grid: the grid is looked up out of range. -/
theorem second_grid_fails : ∃ b s c, runOps exEnv {}
      ([.grid 100, .grid 101, .points 200, .law 300 (some 400) none, .couple none none none,
        .solver ['u', 's', 'l'] none none none] : List (BOp ℚ 2 ℕ ℕ ℕ ℕ ℕ ℕ ℕ ℕ)) = .ok b ∧
    b.solvers[0]? = some s ∧ s.couplings[0]? = some c ∧ s.gridOf c = .error .indexError :=
  ⟨_, _, _, rfl, rfl, rfl, rfl⟩

/-- A history with a collider between two gravities, as used in C52 and C53. -/
example : ∃ b, runOps exEnv {} ([.grid 100, .sdf 500 (some 7) none, .gravity (fun _ => 1) none none true,
    .collider none none (1 / 2) 0, .gravity (fun _ => 2) none none true] : List (BOp ℚ 2 ℕ ℕ ℕ ℕ ℕ ℕ ℕ ℕ)) = .ok b ∧
    b.forces.length = 3 ∧ b.forceStates.length = 2 := ⟨_, rfl, rfl, rfl⟩

/-- Couplings that all use grid 0 are aligned, so the usual scene with one grid is covered by `grid_used_partial`. -/
theorem aligned_single_grid (cs : List BCoupling) (h : ∀ c ∈ cs, c.g = 0) :
    Spec.Aligned cs (fun c => some c.g) := by
  intro c hc i hi
  have h0 : i = 0 := by rw [← Option.some.inj hi]; exact h c hc
  subst h0
  obtain ⟨d, l, rfl⟩ : ∃ d l, cs = d :: l := by
    cases cs with
    | nil => simp at hc
    | cons d l => exact ⟨d, l, rfl⟩
  exact ⟨d, rfl, congrArg some (h d (by simp))⟩

/-- One law per coupling in registration order is aligned too. -/
theorem aligned_in_order (cs : List BCoupling) (h : ∀ (i : ℕ) (c : BCoupling), cs[i]? = some c → c.c = some (i : ℤ)) :
    Spec.Aligned cs BCoupling.c := by
  intro c hc i hi
  obtain ⟨j, hj⟩ := List.mem_iff_getElem?.mp hc
  have : i = (j : ℤ) := by
    have := h j c hj
    rw [hi] at this
    exact Option.some.inj this
  subst this
  exact ⟨c, pyGet_nat _ _ _ hj, hi⟩

/-- A two-body scene on one grid with one law each, and its lookups. -/
example : ∃ b s, runOps exEnv {} ([.grid 100, .points 200, .law 300 (some 400) none, .couple none none none, .points 201,
      .law 301 (some 401) none, .couple none none none, .sdf 500 (some 7) none, .sdf 501 (some 8) none,
      .solver ['u', 's', 'l', '_', 'A', 'F', 'L', 'I', 'P'] none none none] :
      List (BOp ℚ 2 ℕ ℕ ℕ ℕ ℕ ℕ ℕ ℕ)) = .ok b ∧ b.solvers[0]? = some s ∧ s.couplings.map (fun c => c.g) = [0, 0] ∧
    s.couplings.map (fun c => c.c) = [some 0, some 1] ∧
    s.couplings.map s.gridOf = [.ok 100, .ok 100] ∧ s.couplings.map s.lawOf = [.ok (some 300), .ok (some 301)] ∧
    s.couplings.map b.solverStateOf = [.ok (some (200, true)), .ok (some (201, true))] ∧
    b.sdfStateOf 1 = .ok 8 := ⟨_, _, rfl, rfl, rfl, rfl, rfl, rfl, rfl, rfl⟩

/-- A collider requested with friction 1/2 on obstacle 0 and grid 0. -/
example : ((({} : Builder ℚ 2 ℕ ℕ ℕ ℕ ℕ ℕ).addCollider (some 0) (some [0]) (1 / 2) 0).1.forces[0]?) =
    some (.collider 0 [0] 0 1) := rfl

/-! ### The theorems of this file on concrete scenes -/

/-- Numbered objects, as in `exEnv`. -/
abbrev ExOp := BOp ℚ 2 ℕ ℕ ℕ ℕ ℕ ℕ ℕ ℕ

/-- A history with a collider between two gravities: each handle still refers to what it was given for. -/
example : ∃ b b1 b2, runOps exEnv {} ([.grid 100, .sdf 500 (some 7) none, .collider none none (1 / 2) 0] : List ExOp) = .ok b ∧
    applyOp exEnv b (.gravity (fun _ => 2) none none true) = .ok (b1, 1) ∧
    runOps exEnv b1 [.points 200, .grid 101] = .ok b2 ∧
    Spec.Refers exEnv b b2 1 (.gravity (fun _ => 2) none none true : ExOp) :=
  ⟨_, _, _, rfl, rfl, rfl, handles_stay_valid exEnv [.grid 100, .sdf 500 (some 7) none, .collider none none (1 / 2) 0]
    [.points 200, .grid 101] (.gravity (fun _ => 2) none none true) _ _ _ 1 rfl rfl rfl⟩

/-- In the same history the state of the gravity is one place before its handle. -/
example : ∃ b b1 b2, runOps exEnv {} ([.grid 100, .sdf 500 (some 7) none, .collider none none (1 / 2) 0] : List ExOp) = .ok b ∧
    applyOp exEnv b (.gravity (fun _ => 2) none none true) = .ok (b1, 1) ∧ runOps exEnv b1 ([.points 200] : List ExOp) = .ok b2 ∧
    b2.forceStates[1 - 1]? = some (.gravity fun _ => 2) ∧ getGravity b1.forceStates 1 = .error .indexError :=
  ⟨_, _, _, rfl, rfl, rfl, (force_state_shifted exEnv [.grid 100, .sdf 500 (some 7) none, .collider none none (1 / 2) 0]
      [.points 200] (fun _ => 2) none none true _ _ _ 1 rfl rfl rfl).2.2,
    gravity_after_collider_fails exEnv [.grid 100, .sdf 500 (some 7) none, .collider none none (1 / 2) 0] (fun _ => 2) none none
      true _ _ 1 (by decide) rfl rfl⟩

/-- Damping after a collider. -/
example : ∃ b b1, runOps exEnv {} ([.grid 100, .sdf 500 (some 7) none, .collider none none (1 / 2) 0] : List ExOp) = .ok b ∧
    applyOp exEnv b (.damping (1 / 10) none none true) = .ok (b1, 1) ∧ b1.forceStates[1 - 1]? = some (.damping (1 / 10)) :=
  ⟨_, _, rfl, rfl, (damping_state_shifted exEnv [.grid 100, .sdf 500 (some 7) none, .collider none none (1 / 2) 0] [] (1 / 10)
    none none true _ _ _ 1 rfl rfl rfl).2.2⟩

/-- Without a collider before it, a gravity is found, also when a collider follows. -/
example : ∃ b b1 b2, runOps exEnv {} ([.grid 100, .damping (1 / 10) none none true] : List ExOp) = .ok b ∧
    applyOp exEnv b (.gravity (fun _ => 2) none none true : ExOp) = .ok (b1, 1) ∧
    runOps exEnv b1 ([.sdf 500 (some 7) none, .collider none none (1 / 2) 0] : List ExOp) = .ok b2 ∧
    getGravity b2.forceStates 1 = .ok fun _ => 2 :=
  ⟨_, _, _, rfl, rfl, rfl, (force_state_partial exEnv [.grid 100, .damping (1 / 10) none none true]
    [.sdf 500 (some 7) none, .collider none none (1 / 2) 0] rfl none none true _ _ _ 1 rfl rfl).1 _ rfl⟩

/-- Two gravities after a collider: the first uses the acceleration of the second. -/
example : ∃ b, runOps exEnv {} ([.collider none none 0 0, .gravity (fun _ => 1) none none true,
      .gravity (fun _ => 2) none none true] : List ExOp) = .ok b ∧ getGravity b.forceStates 1 = .ok fun _ => 2 :=
  ⟨_, rfl, (gravity_uses_other_state exEnv (fun _ => 1) (fun _ => 2) _ rfl).2⟩

/-- A collider asked for without any obstacle is attached to obstacle −1. -/
example : ∃ g, (({} : Builder ℚ 2 ℕ ℕ ℕ ℕ ℕ ℕ).addCollider none none (1 / 2) 0).1.forces[
      (({} : Builder ℚ 2 ℕ ℕ ℕ ℕ ℕ ℕ).addCollider none none (1 / 2) 0).2]? = some (.collider (-1) g 0 1) :=
  collider_default_obstacle {} rfl (1 / 2) 0

/-- What is registered before the solver. -/
def exBefore : List ExOp :=
  [.grid 100, .points 200, .law 300 (some 400) none, .couple none none none, .points 201, .law 301 (some 401) none,
   .couple none none none, .sdf 500 (some 7) none, .sdf 501 (some 8) none]

/-- Two bodies on one grid, each with its law: the builder accepts the scene and the solver. -/
example : ∃ b b', runOps exEnv {} exBefore = .ok b ∧ b.solverStates = [] ∧
    b.setSolver exEnv ['u', 's', 'l'] none none none = .ok (b', 0) ∧
    b.setSolver exEnv ['u', 's', 'l'] none none (some [((1 : ℕ) : ℤ)]) ≠ .error .indexError := ⟨_, _, rfl, rfl, rfl, nofun⟩

/-- In that scene the couplings are aligned, so every body is computed on its own grid. -/
example {b b' : Builder ℚ 2 ℕ ℕ ℕ ℕ ℕ ℕ} (h : b.setSolver exEnv ['u', 's', 'l'] none none none = .ok (b', 0))
    (hs : ∀ s, b'.solvers[0]? = some s → s.couplings = [⟨0, 0, some 0, some 0, false⟩, ⟨1, 0, some 1, some 1, false⟩]) :
    ∃ s, b'.solvers[0]? = some s ∧ ∀ c ∈ s.couplings, s.gridOf c = pyGet b.grids c.g := by
  obtain ⟨s, h1, h2⟩ := grid_used_partial exEnv b b' _ none none none 0 h
  refine ⟨s, h1, h2 ?_⟩
  rw [hs s h1]
  exact aligned_single_grid _ (by decide)

/-- The laws of these couplings are numbered in order. -/
example : Spec.Aligned [⟨0, 0, some 0, some 0, false⟩, ⟨1, 0, some 1, some 1, false⟩] BCoupling.c := by
  refine aligned_in_order _ fun i c h => ?_
  match i, h with
  | 0, h => exact Option.some.inj h ▸ rfl
  | 1, h => exact Option.some.inj h ▸ rfl

/-- Choosing only the second obstacle pairs it with the state of the first. -/
example {b b' : Builder ℚ 2 ℕ ℕ ℕ ℕ ℕ ℕ} (hb : runOps exEnv {} exBefore = .ok b)
    (h : b.setSolver exEnv ['u', 's', 'l'] none none (some [((1 : ℕ) : ℤ)]) = .ok (b', 0)) :
    ∃ s, b'.solvers[0]? = some s ∧ s.sdfs = [501] ∧ b'.sdfStateOf 0 = .ok 7 ∧ b'.sdfStates[1]? = some 8 := by
  have e : b.sdfLogics = [500, 501] ∧ b.sdfStates = [7, 8] := by
    injection hb with hb
    rw [← hb]
    exact ⟨rfl, rfl⟩
  exact sdf_subset_wrong exEnv b b' _ none none 0 1 501 7 8 (by rw [e.1]; rfl) (by rw [e.2]; rfl) (by rw [e.2]; rfl) h

/-- `build` with one solver. -/
example : ∃ b, runOps exEnv {} (exBefore ++ [.solver ['u', 's', 'l'] none none none]) = .ok b ∧
    ∃ s, b.solvers[0]? = some s ∧ (b.build (0 : ℚ) 0 (1 / 1000)).1 = .one s :=
  ⟨_, rfl, (build_single exEnv (exBefore ++ [.solver ['u', 's', 'l'] none none none]) _ rfl 0 (1 / 1000) 0).1 rfl⟩

/-- `build` hands over the points that were registered. -/
example : ∃ b b1 b2, runOps exEnv {} ([.grid 100, .points 200] : List ExOp) = .ok b ∧
    applyOp exEnv b (.points 201 : ExOp) = .ok (b1, 1) ∧ runOps exEnv b1 ([.grid 101, .points 202] : List ExOp) = .ok b2 ∧
    (b2.build (0 : ℚ) 0 (1 / 1000)).2.materialPoints[1]? = some 201 :=
  ⟨_, _, _, rfl, rfl, rfl, (build_keeps_states exEnv [.grid 100, .points 200] _ _ _ (.points 201) [.grid 101, .points 202] 1 rfl
    rfl rfl 0 (1 / 1000) 0).2.2.2.1 201 rfl⟩

/-- A scheme name that is not known. -/
example : ∀ r, ({} : Builder ℚ 2 ℕ ℕ ℕ ℕ ℕ ℕ).setSolver exEnv ['m', 'u', 's', 'l'] none none none ≠ .ok r :=
  unknown_scheme exEnv _ ['m', 'u', 's', 'l'] none none none (by decide) (by decide)

end Hydrax
