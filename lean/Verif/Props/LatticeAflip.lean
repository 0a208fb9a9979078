import Verif.Props.LatticeSymmetry
import Verif.Lemmas.LatAflip

/-!
# C91, C92 for the ASFLIP solver

The affine matrix of every point is part of the description: it is turned with the axes and renumbered with the points.
-/

set_option linter.unusedSectionVars false

namespace Hydrax

open Spec

section
variable {z : Sz} {K : Type*} [Field K] [LinearOrder K] [IsStrictOrderedRing K] [FloorRing K] {dim : ℕ} {SS : Type*}

/-- As `LatSym.scene`; entry `i` of the affine matrices of state `s` is called `τ s i`. -/
def Spec.LatSym.sceneB (T : LatSym K dim) (h : dim ≤ 3) (pts : (p : Fin z.P) → Equiv.Perm (Fin (z.np p)))
    (ρ : Fin z.C → Equiv.Perm ℕ) (τ : Fin z.S → Equiv.Perm ℕ) (sdf : Fin z.D → SS → SS) :
    SceneSym z K dim SS (LawState K) (ForceState K dim) :=
  { T.scene h pts ρ sdf with solver := fun s B i => rotated (T.mat h) (B ((τ s).symm i)) }

/-- As `LatSym.Image`; bodies own the state of the solver with their number. -/
structure Spec.LatSym.ImageB (T : LatSym K dim) (pts : (p : Fin z.P) → Equiv.Perm (Fin (z.np p))) (ρ : Fin z.C → Equiv.Perm ℕ)
    (τ : Fin z.S → Equiv.Perm ℕ) (sdf : Fin z.D → SS → SS) (sv sv' : Solver z K dim SS (LawState K) (ForceState K dim)) : Prop
    extends T.Image pts ρ sdf sv sv' where
  own : ∀ c ∈ sv.couplings, c.skip = false → c.s.val = c.p.val
  numbersB : ∀ c ∈ sv.couplings, c.skip = false → ∀ q : Fin (z.np c.p), τ c.s q = pts c.p q

variable {T : LatSym K dim} {h : dim ≤ 3} {pts : (p : Fin z.P) → Equiv.Perm (Fin (z.np p))} {ρ : Fin z.C → Equiv.Perm ℕ}
  {τ : Fin z.S → Equiv.Perm ℕ} {sdf : Fin z.D → SS → SS} {sv sv' : Solver z K dim SS (LawState K) (ForceState K dim)}

/-- **C91 (ASFLIP).** One step. Either both calls succeed and the results, including the affine matrices, correspond, or both raise the
same exception. -/
theorem aflip_symmetric (hs : T.ImageB pts ρ τ sdf sv sv') (fn : MathFns K) (pr : AflipParams K)
    (st : SimState z K dim SS (LawState K) (ForceState K dim)) :
    aflipCall fn pr sv' ((T.sceneB h pts ρ τ sdf).state st) = (aflipCall fn pr sv st).map (T.sceneB h pts ρ τ sdf).state := by
  refine SceneSym.aflipCall_sym ⟨hs.dims, hs.alpha, hs.domains, hs.couplings, fun c hc => ?_, ?_, hs.sdfs⟩ (fun c hc hk => ?_) fn pr st
  · rw [hs.laws]
    exact LatSym.libLaw_sym T h (hs.libLaws c.c) (hs.numbers c hc)
  · rw [hs.forces]
    exact List.forall₂_same.mpr fun f hf => SceneSym.libForce_sym rfl (hs.libForces f hf)
  · have hn := hs.numbersB c hc hk
    refine ⟨hs.own c hc hk, fun B q => ?_, fun B => ?_⟩
    · show rotated (T.mat h) (B ((τ c.s).symm q)) = _
      rw [perm_symm_val hn]
      rfl
    · have e := ofFin_renumber hn (0 : Mat3 K) B
      funext i
      have e1 := congrFun e i
      unfold ofFin at e1
      show padded (fun q => rotated (T.mat h) (B ((pts c.p).symm q))) i = rotated (T.mat h) (padded B ((τ c.s).symm i))
      unfold padded
      rw [← e1]
      split_ifs
      · rfl
      · exact rotated_zero.symm

/-- **C91 (ASFLIP).** Any number of steps. -/
theorem aflip_run_symmetric (hs : T.ImageB pts ρ τ sdf sv sv') (fn : MathFns K) (pr : AflipParams K) (k : ℕ)
    (st : SimState z K dim SS (LawState K) (ForceState K dim)) :
    runSteps (aflipCall fn pr sv') k ((T.sceneB h pts ρ τ sdf).state st)
      = (runSteps (aflipCall fn pr sv) k st).map (T.sceneB h pts ρ τ sdf).state := by
  induction k with
  | zero => rfl
  | succ k ih =>
    simp only [runSteps, ih]
    cases runSteps (aflipCall fn pr sv) k st with
    | error e => rfl
    | ok s => exact aflip_symmetric hs fn pr s

/-- **C92 (ASFLIP).** A scene that looks the same after exchanging or reversing axes and renumbering points keeps doing so. -/
theorem aflip_symmetric_stays (hs : T.ImageB pts ρ τ sdf sv sv) (fn : MathFns K) (pr : AflipParams K) (k : ℕ)
    {st st' : SimState z K dim SS (LawState K) (ForceState K dim)} (h0 : (T.sceneB h pts ρ τ sdf).state st = st)
    (hr : runSteps (aflipCall fn pr sv) k st = .ok st') {p : Fin z.P} {s : MPState K dim (z.np p)}
    (hb : st'.world.bodies p = .deformable s) (q : Fin (z.np p)) :
    s.position (pts p q) = T.point (s.position q) ∧ s.velocity (pts p q) = T.vec (s.velocity q) ∧
    s.stress (pts p q) = rotated (T.mat h) (s.stress q) ∧ s.F (pts p q) = rotated (T.mat h) (s.F q) ∧
    s.volume (pts p q) = s.volume q := by
  have e := aflip_run_symmetric (h := h) hs fn pr k st
  rw [h0, hr] at e
  have e1 : st' = (T.sceneB h pts ρ τ sdf).state st' := by
    simp only [Except.map, Except.ok.injEq] at e
    exact e
  have e2 : st'.world.bodies p = T.body h (pts p) (st'.world.bodies p) := by
    conv_lhs => rw [e1]
    rfl
  rw [hb] at e2
  simp only [Spec.LatSym.body, Body.deformable.injEq] at e2
  have e3 : ∀ q, s.position q = T.point (s.position ((pts p).symm q)) ∧ s.velocity q = T.vec (s.velocity ((pts p).symm q)) ∧
      s.stress q = rotated (T.mat h) (s.stress ((pts p).symm q)) ∧ s.F q = rotated (T.mat h) (s.F ((pts p).symm q)) ∧
      s.volume q = s.volume ((pts p).symm q) := fun q =>
    ⟨congrFun (congrArg MPState.position e2) q, congrFun (congrArg MPState.velocity e2) q,
      congrFun (congrArg MPState.stress e2) q, congrFun (congrArg MPState.F e2) q, congrFun (congrArg MPState.volume e2) q⟩
  have := e3 (pts p q)
  simpa only [Equiv.symm_apply_apply] using this

end

/-! ### A scene meeting the hypotheses -/

theorem exMirror_mapsB (ker : Kernel) (reset : Bool) :
    exMirror.ImageB exSwap (fun _ => Equiv.swap 0 1) (fun _ => Equiv.swap 0 1) Fin.elim0 (exSolver ker reset) (exSolver ker reset) where
  toImage := exMirror_maps ker reset
  own c hc _ := by
    have hs : ∀ c : Coupling exSz, c.s.val = c.p.val := fun c =>
      congrArg Fin.val (Subsingleton.elim (α := Fin 1) c.s c.p)
    exact hs c
  numbersB c _ _ q := by
    have : ∀ q : Fin 2, (Equiv.swap (0 : ℕ) 1) q = (Equiv.swap (0 : Fin 2) 1 q : ℕ) := by decide
    exact this q

/-- The two facing points with affine matrices that mirror each other. -/
def mirrorPairB : SimState exSz ℚ 2 Unit (LawState ℚ) (ForceState ℚ 2) :=
  { mirrorPair with mech := { mirrorPair.mech with
      solvers := fun _ i => if i = 0 then !![1, 2, 0; 3, 4, 0; 0, 0, 0] else if i = 1 then !![1, -2, 0; -3, 4, 0; 0, 0, 0] else 0 } }

theorem mirrorPairB_symmetric :
    (exMirror.sceneB (by decide) exSwap (fun _ => Equiv.swap 0 1) (fun _ => Equiv.swap 0 1) Fin.elim0).state mirrorPairB = mirrorPairB := by
  have h0 := mirrorPair_symmetric
  unfold Spec.SceneSym.state
  simp only [mirrorPairB, SimState.mk.injEq, and_true, Spec.SceneSym.mech, Mech.mk.injEq]
  refine ⟨congrArg SimState.world h0, congrArg (fun st => st.mech.laws) h0, ?_, congrArg (fun st => st.mech.forces) h0⟩
  funext s i
  show rotated (exMirror.mat (by decide)) _ = _
  match i with
  | 0 => rw [Equiv.symm_swap, Equiv.swap_apply_left]; decide +kernel
  | 1 => rw [Equiv.symm_swap, Equiv.swap_apply_right]; decide +kernel
  | i + 2 =>
    rw [Equiv.symm_swap, Equiv.swap_apply_of_ne_of_ne (by omega) (by omega)]
    simp only [show ¬ i + 2 = 0 by omega, show ¬ i + 2 = 1 by omega, if_false, rotated_zero]

/-- A thousand steps of that scene: either they fail or the two points still mirror each other. -/
example (ker : Kernel) (reset : Bool) (pr : AflipParams ℚ) (st' : SimState exSz ℚ 2 Unit (LawState ℚ) (ForceState ℚ 2))
    (hr : runSteps (aflipCall ratFns pr (exSolver ker reset)) 1000 mirrorPairB = .ok st') (s : MPState ℚ 2 2)
    (hb : st'.world.bodies (0 : Fin 1) = .deformable s) :
    s.position 1 0 = 1 - s.position 0 0 ∧ s.velocity 1 1 = s.velocity 0 1 := by
  have := aflip_symmetric_stays (exMirror_mapsB ker reset) ratFns pr 1000 mirrorPairB_symmetric hr hb (0 : Fin 2)
  have h1 : s.position 1 = exMirror.point (s.position 0) := this.1
  have h2 : s.velocity 1 = exMirror.vec (s.velocity 0) := this.2.1
  refine ⟨?_, ?_⟩
  · rw [h1]; change -1 * s.position 0 0 + 1 = _; ring
  · rw [h2]; change 1 * s.velocity 0 1 = _; ring

/-- The first step does not fail and the points move. -/
example : probe (aflipCall ratFns ⟨99 / 100, true, 0, 1, true, 0, 1⟩ (exSolver .linear false) mirrorPairB) (0 : Fin 1)
      (fun s => s.velocity (0 : Fin 2) 0 + s.velocity (1 : Fin 2) 0) = some 0 ∧
    probe (aflipCall ratFns ⟨99 / 100, true, 0, 1, true, 0, 1⟩ (exSolver .linear false) mirrorPairB) (0 : Fin 1)
      (fun s => s.velocity (0 : Fin 2) 0) ≠ some 1 := by
  decide +kernel

end Hydrax
