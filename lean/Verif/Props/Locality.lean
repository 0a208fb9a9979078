import Verif.Lemmas.LocalScene
import Verif.Props.Walls
import Verif.Props.Frame

/-!
# What happens at a point depends on the points around it only (C119)
-/

set_option linter.unusedSectionVars false

namespace Hydrax
open Spec

section
variable {z : Sz} {K : Type*} [Field K] [LinearOrder K] [IsStrictOrderedRing K] [FloorRing K] {dim : ℕ} {SS : Type*}
  {sv : Solver z K dim SS (LawState K) (ForceState K dim)} {A B : PointSet z}

/-- Slots with weight or gradient lie within reach of the point. -/
theorem slot_reach' {n : ℕ} (ker : Kernel) (o e : Fin dim → K) (h : K) (hh : 0 < h) (pad : ℕ) (pos : Fin n → Fin dim → K)
    (i) (hi : (compute ker (GridDomain.create o e h pad) pos).shapeVal i ≠ 0 ∨
      (compute ker (GridDomain.create o e h pad) pos).shapeGrad i ≠ fun _ => 0) (a : Fin dim) :
    |(GridDomain.create o e h pad).positionStack ((compute ker (GridDomain.create o e h pad) pos).nodeHash i) a -
      pos ((compute ker (GridDomain.create o e h pad) pos).pointId i) a| ≤ (reach ker : K) * h := by
  have hv := slot_valid ker _ pos i hi
  set g := GridDomain.create o e h pad with hgdef
  have hg : g.cellSize * g.invCellSize = 1 := create_inv o e h hh pad
  have hc : g.cellSize = h := rfl
  have e1 : g.positionStack ((compute ker g pos).nodeHash i) = latticePos g (nodeIdx ker g (pos i.divNat) i.modNat.val) := by
    rw [← positionStack_nodeHashOf g _ hv, ← clipHash_of_valid g _ hv]; rfl
  have e2 : (compute ker g pos).pointId i = i.divNat := rfl
  rw [e1, e2, latticePos_nodeIdx ker g hg, hc, sub_sub_cancel_left, abs_neg, abs_mul, abs_of_pos hh, mul_comm]
  exact mul_le_mul_of_nonneg_right (distVec_reach ker g _ _ a i.modNat.isLt) hh.le

/-- Two states of a scene agree on the points of `A`, on the obstacles, the forces and the clock. -/
def Spec.SameScene (sv : Solver z K dim SS (LawState K) (ForceState K dim)) (A : PointSet z)
    (st st' : SimState z K dim SS (LawState K) (ForceState K dim)) : Prop :=
  SameOn sv.couplings A st.world st'.world st.mech st'.mech ∧ st.dt = st'.dt ∧ st.time = st'.time

/-- Every point outside `A` that shares a grid with point `q` of body `p` is, along some axis, further away than the windows of the two
kernels reach together: twice the reach of the kernel if both bodies use the same one. -/
def Spec.Insulated (sv : Solver z K dim SS (LawState K) (ForceState K dim)) (A : PointSet z) (w : World z K dim SS)
    (p : Fin z.P) (q : Fin (z.np p)) : Prop :=
  ∀ c ∈ sv.couplings, c.p = p → ∀ c' ∈ sv.couplings, c'.g = c.g → ∀ q', ¬ A c'.p q' →
    ∃ a, (reach c.ker + reach c'.ker : K) * (sv.domains c.g).cellSize <
      |(w.bodies p).position q a - (w.bodies c'.p).position q' a|

/-- The scenes covered: grids with a positive cell size, forces and laws of the package, no law shared by two bodies. -/
structure Spec.LocalScene (sv : Solver z K dim SS (LawState K) (ForceState K dim)) : Prop where
  grids : ∀ g, ∃ o e h pad, 0 < h ∧ sv.domains g = GridDomain.create o e h pad
  forces : ∀ f ∈ sv.forces, LibForce f
  laws : ∀ c, LibLaw (sv.laws c)
  own : ∀ c ∈ sv.couplings, ∀ d ∈ sv.couplings, c.skip = false → d.skip = false → c.c = d.c → c.p = d.p

/-- Nodes that no point outside `A` reaches, in either state. -/
def freeNodes (sv : Solver z K dim SS (LawState K) (ForceState K dim)) (A : PointSet z) (w w' : World z K dim SS) (g : Fin z.G)
    (j : ℕ) : Prop :=
  ∀ c ∈ sv.couplings, c.g = g → ∀ q, ¬ A c.p q →
    (∀ i, (compute c.ker (sv.domains g) (w.bodies c.p).position).pointId i = q →
      (compute c.ker (sv.domains g) (w.bodies c.p).position).nodeHash i = j →
      (compute c.ker (sv.domains g) (w.bodies c.p).position).shapeVal i = 0 ∧
      (compute c.ker (sv.domains g) (w.bodies c.p).position).shapeGrad i = fun _ => 0) ∧
    (∀ i, (compute c.ker (sv.domains g) (w'.bodies c.p).position).pointId i = q →
      (compute c.ker (sv.domains g) (w'.bodies c.p).position).nodeHash i = j →
      (compute c.ker (sv.domains g) (w'.bodies c.p).position).shapeVal i = 0 ∧
      (compute c.ker (sv.domains g) (w'.bodies c.p).position).shapeGrad i = fun _ => 0)

theorem freeNodes_of_insulated (hg : ∀ g, ∃ o e h pad, 0 < h ∧ sv.domains g = GridDomain.create o e h pad)
    {w w' : World z K dim SS} {c : Coupling z} (hc : c ∈ sv.couplings) {q : Fin (z.np c.p)}
    (he : (w.bodies c.p).position q = (w'.bodies c.p).position q)
    (h1 : Insulated sv A w c.p q) (h2 : Insulated sv A w' c.p q) :
    NodesIn (freeNodes sv A w w' c.g) (compute c.ker (sv.domains c.g) (w.bodies c.p).position) q := by
  intro i hi hne c' hc' hgg q' hq'
  obtain ⟨o, e, h, pad, hh, hd⟩ := hg c.g
  have hcell : (sv.domains c.g).cellSize = h := by rw [hd]; rfl
  have r1 := fun a => slot_reach' c.ker o e h hh pad (w.bodies c.p).position i (by rw [← hd]; exact hne) a
  rw [← hd, hi] at r1
  have clash : ∀ (x : Fin (z.np c'.p) → Fin dim → K),
      (∃ a, (reach c.ker + reach c'.ker : K) * (sv.domains c.g).cellSize < |(w.bodies c.p).position q a - x q' a|) →
      ∀ i', (compute c'.ker (sv.domains c.g) x).pointId i' = q' →
        (compute c'.ker (sv.domains c.g) x).nodeHash i' = (compute c.ker (sv.domains c.g) (w.bodies c.p).position).nodeHash i →
        (compute c'.ker (sv.domains c.g) x).shapeVal i' = 0 ∧ (compute c'.ker (sv.domains c.g) x).shapeGrad i' = fun _ => 0 := by
    rintro x ⟨a, ha⟩ i' hi' hj
    by_contra hcon
    have r2 := slot_reach' c'.ker o e h hh pad x i' (by rw [← hd]; tauto) a
    rw [← hd, hi', hj] at r2
    rw [hcell] at ha
    have t := abs_sub_le ((w.bodies c.p).position q a)
      ((sv.domains c.g).positionStack ((compute c.ker (sv.domains c.g) (w.bodies c.p).position).nodeHash i) a) (x q' a)
    have := r1 a
    rw [abs_sub_comm] at this
    nlinarith
  exact ⟨clash _ (h1 c hc rfl c' hc' hgg q' hq'), clash _ (by rw [he]; exact h2 c hc rfl c' hc' hgg q' hq')⟩

/-- **C119** One call of `USLSolver`: two scenes that agree on the points of `A` still agree, after the call, on every point of `A` that is
further from all points outside `A` than their windows reach together. -/
theorem step_local (S : LocalScene sv) (fn : MathFns K) {st st' r r' : SimState z K dim SS (LawState K) (ForceState K dim)}
    (hs : SameScene sv A st st') (hr : uslCall fn sv st = .ok r) (hr' : uslCall fn sv st' = .ok r')
    (hB : ∀ p q, B p q → A p q ∧ Insulated sv A st.world p q ∧ Insulated sv A st'.world p q) : SameScene sv B r r' := by
  refine call_local (A := A) (B := B) (N := freeNodes sv A st.world st'.world) rfl S.forces S.laws S.own (fun p q h => (hB p q h).1) fn ?_ ?_
    hs.2.1 hs.2.2 hs.1 (fun g j => Iff.rfl) (fun c hc q hq => ?_) r r' hr hr'
  · intro x x' hx dt t
    exact Both.andThen (runHook_local _ dt t (fun f hf x x' hx => (libForce_local (S.forces f hf) dt t hx).1) hx)
      fun x x' hx => Both.foldE _ (fun c _ x x' hx => p2gCoupling_local c hx) hx
  · intro x x' hx dt t
    exact Both.foldE _ (fun c _ x x' hx => g2pCoupling_local (fun p q h => (hB p q h).1) _ dt c hx) hx
  · obtain ⟨hA, h1, h2⟩ := hB _ q hq
    exact freeNodes_of_insulated S.grids hc (bodyPoint_position (hs.1.bodies _ q hA)) h1 h2

/-- **C119** The same for `USLAFLIP`, including the affine matrices it keeps, if every body has the number of its solver state. -/
theorem aflip_step_local (S : LocalScene sv) (hown : ∀ c ∈ sv.couplings, c.skip = false → c.s.val = c.p.val) (fn : MathFns K)
    (pr : AflipParams K) {st st' r r' : SimState z K dim SS (LawState K) (ForceState K dim)}
    (hs : SameScene sv A st st') (hr : aflipCall fn pr sv st = .ok r) (hr' : aflipCall fn pr sv st' = .ok r')
    (hB : ∀ p q, B p q → A p q ∧ Insulated sv A st.world p q ∧ Insulated sv A st'.world p q) : SameScene sv B r r' := by
  refine call_local (A := A) (B := B) (N := freeNodes sv A st.world st'.world) rfl S.forces S.laws S.own (fun p q h => (hB p q h).1) fn ?_ ?_
    hs.2.1 hs.2.2 hs.1 (fun g j => Iff.rfl) (fun c hc q hq => ?_) r r' hr hr'
  · intro x x' hx dt t
    exact Both.andThen (runHook_local _ dt t (fun f hf x x' hx => (libForce_local (S.forces f hf) dt t hx).1) hx)
      fun x x' hx => Both.foldE _ (fun c hc x x' hx => aflipP2gCoupling_local _ c hc hx) hx
  · intro x x' hx dt t
    exact Both.foldE _ (fun c hc x x' hx => aflipG2pCoupling_local (fun p q h => (hB p q h).1) hown fn pr _ dt c hc hx) hx
  · obtain ⟨hA, h1, h2⟩ := hB _ q hq
    exact freeNodes_of_insulated S.grids hc (bodyPoint_position (hs.1.bodies _ q hA)) h1 h2

/-- A difference spreads from step to step by points within reach only. -/
theorem run_local_of {call : SimState z K dim SS (LawState K) (ForceState K dim) →
      Except PyErr (SimState z K dim SS (LawState K) (ForceState K dim))}
    (hcall : ∀ (A B : PointSet z) st st' r r', SameScene sv A st st' → call st = .ok r → call st' = .ok r' →
      (∀ p q, B p q → A p q ∧ Insulated sv A st.world p q ∧ Insulated sv A st'.world p q) → SameScene sv B r r')
    (A : ℕ → PointSet z) (n : ℕ) {st st' r r' : SimState z K dim SS (LawState K) (ForceState K dim)}
    (hs : SameScene sv (A 0) st st') (hr : runSteps call n st = .ok r) (hr' : runSteps call n st' = .ok r')
    (hA : ∀ i < n, ∀ si si', runSteps call i st = .ok si → runSteps call i st' = .ok si' →
      ∀ p q, A (i + 1) p q → A i p q ∧ Insulated sv (A i) si.world p q ∧ Insulated sv (A i) si'.world p q) :
    SameScene sv (A n) r r' := by
  induction n generalizing r r' with
  | zero =>
    have e : st = r := by simpa [runSteps] using hr
    have e' : st' = r' := by simpa [runSteps] using hr'
    subst e e'; exact hs
  | succ n ih =>
    obtain ⟨s, h1, h2⟩ := runSteps_succ_ok.mp hr
    obtain ⟨s', h1', h2'⟩ := runSteps_succ_ok.mp hr'
    exact hcall _ _ _ _ _ _ (ih h1 h1' fun i hi => hA i (by omega)) h2 h2' (hA n (by omega) s s' h1 h1')

/-- **C119** Any number of steps of `USLSolver`. -/
theorem run_local (S : LocalScene sv) (fn : MathFns K) (A : ℕ → PointSet z) (n : ℕ)
    {st st' r r' : SimState z K dim SS (LawState K) (ForceState K dim)} (hs : SameScene sv (A 0) st st')
    (hr : runSteps (uslCall fn sv) n st = .ok r) (hr' : runSteps (uslCall fn sv) n st' = .ok r')
    (hA : ∀ i < n, ∀ si si', runSteps (uslCall fn sv) i st = .ok si → runSteps (uslCall fn sv) i st' = .ok si' →
      ∀ p q, A (i + 1) p q → A i p q ∧ Insulated sv (A i) si.world p q ∧ Insulated sv (A i) si'.world p q) :
    SameScene sv (A n) r r' :=
  run_local_of (fun _ _ _ _ _ _ hs h h' hB => step_local S fn hs h h' hB) A n hs hr hr' hA

/-- **C119** Any number of steps of `USLAFLIP`. -/
theorem aflip_run_local (S : LocalScene sv) (hown : ∀ c ∈ sv.couplings, c.skip = false → c.s.val = c.p.val) (fn : MathFns K)
    (pr : AflipParams K) (A : ℕ → PointSet z) (n : ℕ)
    {st st' r r' : SimState z K dim SS (LawState K) (ForceState K dim)} (hs : SameScene sv (A 0) st st')
    (hr : runSteps (aflipCall fn pr sv) n st = .ok r) (hr' : runSteps (aflipCall fn pr sv) n st' = .ok r')
    (hA : ∀ i < n, ∀ si si', runSteps (aflipCall fn pr sv) i st = .ok si → runSteps (aflipCall fn pr sv) i st' = .ok si' →
      ∀ p q, A (i + 1) p q → A i p q ∧ Insulated sv (A i) si.world p q ∧ Insulated sv (A i) si'.world p q) :
    SameScene sv (A n) r r' :=
  run_local_of (fun _ _ _ _ _ _ hs h h' hB => aflip_step_local S hown fn pr hs h h' hB) A n hs hr hr' hA

end

/-! ### A pair of points in a long box -/

/-- A box of four by four with cells of one half. -/
def longSolver (ker : Kernel) : Solver exSz ℚ 2 Unit (LawState ℚ) (ForceState ℚ 2) :=
  { exSolver ker false with domains := fun _ => GridDomain.create (fun _ => 0) (fun _ => 4) (1 / 2) 2 }

/-- Point 0 at `(3/4, 1/2)`; point 1 at `(x, 1/2)` with velocity `v` and pressure `s`. -/
def longState (x v s : ℚ) : SimState exSz ℚ 2 Unit (LawState ℚ) (ForceState ℚ 2) :=
  { exState with world := { bodies := fun _ => .deformable (MPState.create
      { position := ![![3 / 4, 1 / 2], ![x, 1 / 2]]
        velocity := some ![![1, 2], ![v, 0]]
        mass := some fun _ => 1
        volume := some fun _ => 1 / 4
        stress := some ![1, !![s, 0, 0; 0, s, 0; 0, 0, s]] }), sdfs := Fin.elim0 } }

theorem long_scene (ker : Kernel) : LocalScene (longSolver ker) where
  grids _ := ⟨_, _, _, _, by norm_num, rfl⟩
  forces f hf := by
    change f ∈ (exSolver ker false).forces at hf
    rw [exSolver_forces, List.mem_singleton] at hf; subst hf; exact .gravity _ _ _ _
  laws _ := .elastic _ _ _
  own _ _ _ _ _ _ _ := Subsingleton.elim (α := Fin 1) _ _

/-- Everything but point 1. -/
def allButLast : PointSet exSz := fun _ q => q.val = 0

theorem long_same (ker : Kernel) (x v s x' v' s' : ℚ) : SameScene (longSolver ker) allButLast (longState x v s) (longState x' v' s') := by
  refine ⟨⟨rfl, rfl, fun p q hq => ?_, fun c _ _ q _ => rfl, fun c _ _ q _ => rfl⟩, rfl, rfl⟩
  change q.val = 0 at hq
  have : q = (⟨0, by decide⟩ : Fin 2) := Fin.ext hq
  subst this
  simp only [longState, bodyPoint, pointOf, MPState.create, Option.getD, Option.map, Fin.mk_zero, Matrix.cons_val_zero]

/-- A point more than the combined reach (one unit for the linear kernel) away is insulated. -/
theorem long_insulated (x v s : ℚ) (hx : 7 / 4 < x) (p : Fin 1) (q : Fin 2) (hq : q.val = 0) :
    Insulated (longSolver .linear) allButLast (longState x v s).world p q := by
  intro c hc _ c' hc' _ q' hq'
  have e : c.ker = .linear := by
    simp only [longSolver, exSolver] at hc
    rw [List.mem_singleton] at hc; subst hc; rfl
  have e' : c'.ker = .linear := by
    simp only [longSolver, exSolver] at hc'
    rw [List.mem_singleton] at hc'; subst hc'; rfl
  have q0 : q = 0 := Fin.ext hq
  have q1 : q' = (1 : Fin 2) := by
    have h0 : q'.val ≠ 0 := hq'
    have h2 : q'.val < 2 := q'.isLt
    exact Fin.ext (by change q'.val = 1; omega)
  refine ⟨0, ?_⟩
  subst q0
  rw [e, e', q1]
  change (((1 : ℚ) : ℚ) + ((1 : ℚ) : ℚ)) * (1 / 2) < |3 / 4 - x|
  rw [abs_of_neg (by linarith)]
  linarith

/-- Moving the far point about, pushing it or loading it makes no difference to the near one, -/
example (x v s x' v' s' : ℚ) (hx : 7 / 4 < x) (hx' : 7 / 4 < x') (r r')
    (hr : uslCall ratFns (longSolver .linear) (longState x v s) = .ok r)
    (hr' : uslCall ratFns (longSolver .linear) (longState x' v' s') = .ok r') :
    bodyPoint (0 : Fin 2) (r.world.bodies (0 : Fin 1)) = bodyPoint (0 : Fin 2) (r'.world.bodies (0 : Fin 1)) :=
  (step_local (long_scene .linear) ratFns (long_same .linear x v s x' v' s') hr hr' (B := allButLast) fun p q hq =>
    ⟨hq, long_insulated x v s hx p q hq, long_insulated x' v' s' hx' p q hq⟩).1.bodies (0 : Fin 1) (0 : Fin 2) rfl

example (pr : AflipParams ℚ) (x v s x' v' s' : ℚ) (hx : 7 / 4 < x) (hx' : 7 / 4 < x') (r r')
    (hr : aflipCall ratFns pr (longSolver .linear) (longState x v s) = .ok r)
    (hr' : aflipCall ratFns pr (longSolver .linear) (longState x' v' s') = .ok r') :
    r.mech.solvers (0 : Fin 1) 0 = r'.mech.solvers (0 : Fin 1) 0 :=
  (aflip_step_local (long_scene .linear) (by decide) ratFns pr (long_same .linear x v s x' v' s') hr hr' (B := allButLast) fun p q hq =>
    ⟨hq, long_insulated x v s hx p q hq, long_insulated x' v' s' hx' p q hq⟩).1.affine
      (exCoupling .linear) (by simp [longSolver, exSolver]) rfl (0 : Fin 2) rfl

/-- the calls succeed and do move the near point, -/
example : probe (uslCall ratFns (longSolver .linear) (longState 2 3 4)) (0 : Fin 1) (fun s => s.velocity (0 : Fin 2) 1) = some (19 / 10) := by
  decide +kernel

set_option maxRecDepth 100000 in
/-- while a point within reach (at the same height, 13/20 away) does make a difference: the range cannot be dropped. -/
theorem near_point_matters :
    (probe (uslCall ratFns (longSolver .linear) (longState (7 / 5) 3 4)) (0 : Fin 1) (fun s => s.velocity (0 : Fin 2) 0) ==
    probe (uslCall ratFns (longSolver .linear) (longState (7 / 5) 4 4)) (0 : Fin 1) (fun s => s.velocity (0 : Fin 2) 0)) = false := by
  decide +kernel

end Hydrax
