import Verif.Props.SlabFluid
import Verif.Props.SlabExample

/-!
# The slab of C159 as a fluid
-/

namespace Hydrax
open Spec

/-- The two points of the plane and the five layers as a fluid, one of the two stacks denser than its reference. -/
def leafFlow : Solver leafSz ℚ 2 Unit (LawState ℚ) (ForceState ℚ 2) :=
  { leafSolver with laws := fun _ => fluidLaw ratFns ⟨100, 3, 1⟩ false }

def bookFlow : Solver bookSz ℚ 3 Unit (LawState ℚ) (ForceState ℚ 3) :=
  { bookSolver with laws := fun _ => fluidLaw ratFns ⟨100, 3, 1⟩ false }

def leafPool : SimState leafSz ℚ 2 Unit (LawState ℚ) (ForceState ℚ 2) :=
  { leafState with mech := { leafState.mech with laws := fun _ => .density fun i => if i = 0 then 2 else 1 } }

def bookPool : SimState bookSz ℚ 3 Unit (LawState ℚ) (ForceState ℚ 3) :=
  { bookState with mech := { bookState.mech with laws := fun _ => .density fun i => if i % 2 = 0 then 2 else 1 } }

theorem leafFlow_regular : Regular uslCutoff leafFlow leafPool.world :=
  ⟨leaf_regular.1, leaf_regular.2, leaf_regular.3, leaf_regular.4⟩

theorem bookFlow_regular : Regular uslCutoff bookFlow bookPool.world :=
  ⟨book_regular.1, book_regular.2, book_regular.3, book_regular.4⟩

set_option maxRecDepth 100000 in
theorem leafFlow_ok : (uslCall ratFns leafFlow leafPool).isOk = true := by decide +kernel

set_option maxRecDepth 100000 in
theorem bookFlow_ok : (uslCall ratFns bookFlow bookPool).isOk = true := by decide +kernel

set_option maxRecDepth 100000 in
theorem bookFlow_slow : checkOk (uslCall ratFns bookFlow bookPool) (fun s => match s.world.bodies (0 : Fin 1) with
      | .rigid _ => false
      | .deformable s' => (List.finRange 10).all fun p =>
          s'.position p 2 - bookBody.position p 2 ≤ 1 / 10 ∧ -(1 / 10) ≤ s'.position p 2 - bookBody.position p 2) = true := by
  decide +kernel

/-- `slab_fluid_run_partial` on one step of the two points and the five layers above them: the point in the middle layer moves with the point
of the plane, and has its stress and three times its volume. -/
example : ∃ st' ut' t2 t3, uslCall ratFns leafFlow leafPool = .ok st' ∧ uslCall ratFns bookFlow bookPool = .ok ut' ∧
    st'.world.bodies (0 : Fin 1) = .deformable t2 ∧ ut'.world.bodies (0 : Fin 1) = .deformable t3 ∧
    (∀ a : Fin 2, t3.velocity 5 a.castSucc = t2.velocity 1 a) ∧ t3.velocity 5 2 = 0 ∧ t3.stress 5 = t2.stress 1 ∧ t3.volume 5 = 3 * t2.volume 1 := by
  obtain ⟨st', h⟩ := isOk_ok leafFlow_ok
  obtain ⟨ut', h'⟩ := isOk_ok bookFlow_ok
  have hslow := checkOk_ok bookFlow_slow ut' h'
  have hbound : ∀ s2 : MPState ℚ 3 10, ut'.world.bodies (0 : Fin 1) = .deformable s2 → ∀ p,
      |s2.position p 2 - bookBody.position p 2| ≤ 1 / 10 := by
    intro s2 e2 p
    rw [e2] at hslow
    simp only [List.all_eq_true, List.mem_finRange, true_implies, decide_eq_true_eq] at hslow
    have := hslow p
    exact abs_le.mpr ⟨this.2, this.1⟩
  obtain ⟨t2, t3, b2, b3, -, -, q⟩ := slab_fluid_run_partial (sv := leafFlow) (tv := bookFlow) (fl := ratFns) (k := .fluid ⟨100, 3, 1⟩) [([(0 : Fin 1)], 0)]
    [([(0 : Fin 1)], 0)] rfl rfl (fun _ => rfl) (fun _ => rfl) 1 (runSteps_succ_ok.mpr ⟨_, rfl, h⟩) (runSteps_succ_ok.mpr ⟨_, rfl, h'⟩)
    (fun i hi si hs => by
      obtain rfl : i = 0 := by omega
      have : leafPool = si := by simpa [runSteps] using hs
      exact this ▸ leafFlow_regular)
    (fun i hi si hs => by
      obtain rfl : i = 0 := by omega
      have : bookPool = si := by simpa [runSteps] using hs
      exact this ▸ bookFlow_regular) rfl rfl (c := leafCoupling) rfl rfl (d := bookCoupling) rfl rfl rfl book_over
    ⟨fun a => by fin_cases a <;> simp [gridAccel, leafPool, bookPool, leafState, bookState, leafCoupling, bookCoupling],
      by simp [gridAccel, bookPool, bookState, bookCoupling]⟩ (s2 := leafBody) (s3 := bookBody) rfl rfl (lo := 2) (hi := 7) (τ := 3) (w := 1 / 10)
    (by norm_num) (by decide +kernel) (by norm_num) (by norm_num) (by
      intro k hk st1 st2 e1 e2 s1 s2 b1 b2 p
      obtain rfl : k = 0 := by omega
      have : bookPool = st1 := by simpa [runSteps] using e1
      subst this
      rw [h'] at e2
      cases e2
      have b1 := Body.deformable.inj b1
      subst b1
      change _ ≤ 1 / 10 * 1
      rw [mul_one]
      exact hbound s2 b2 p) (of := bookOf) (rho := fun i => if i = 0 then 2 else 1)
      (rho' := fun i => if i % 2 = 0 then 2 else 1) rfl rfl (fun _ => rfl) (ξ := fun _ => 1 / 2) book_slab
  have hin : InLayers bookGrid (2 + ((1 : ℕ) : ℚ) * (2 * halfWidth Kernel.linear + 1 / 10)) (7 - ((1 : ℕ) : ℚ) * (2 * halfWidth Kernel.linear + 1 / 10))
      (t3.position 5) := by
    intro d
    have h1 := abs_le.mp (hbound t3 b3 5)
    have h2 : bookBody.position 5 2 = 5 / 2 := by decide +kernel
    have e2 : (zGrid bookGrid).origin = fun _ => (-2 : ℚ) := by
      funext d
      simp [zGrid, GridDomain.create]
    have e3 : (zGrid bookGrid).cellSize = 1 := rfl
    rw [h2] at h1
    unfold cellCoord
    rw [e2, e3]
    simp only [halfWidth]
    push_cast
    constructor <;> linarith [h1.1, h1.2]
  exact ⟨st', ut', t2, t3, h, h', b2, b3, (q.velocity 5 hin).1, (q.velocity 5 hin).2, q.stress 5 hin, q.volume 5 hin⟩

end Hydrax
