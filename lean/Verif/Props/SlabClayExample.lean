import Verif.Props.SlabClay
import Verif.Props.SlabSandExample

/-!
# The slab of C159 as clay
-/

namespace Hydrax
open Spec

/-- A Newton step with the unit matrix for the derivative. -/
def plainOps : NewtonOps ℚ := { jac := fun _ _ => 1, bad := fun _ => false }

/-- Clay of specific volume 3/2. -/
def slabClay : MCCParams ℚ := ⟨1 / 4, 1, 1 / 5, 1 / 20, 2, 1, none, none, 1, 3⟩

def leafClay : Solver leafSz ℚ 2 Unit (LawState ℚ) (ForceState ℚ 2) := { leafSolver with laws := fun _ => mccLaw ratFns plainOps slabClay false }

def bookClay : Solver bookSz ℚ 3 Unit (LawState ℚ) (ForceState ℚ 3) := { bookSolver with laws := fun _ => mccLaw ratFns plainOps slabClay false }

def leafBed : SimState leafSz ℚ 2 Unit (LawState ℚ) (ForceState ℚ 2) :=
  { leafState with mech := { leafState.mech with laws := fun _ => .mcc (fun i => if i % 2 = 0 then 9 else 7) (some fun _ => isoT 5) leafStrain } }

def bookBed : SimState bookSz ℚ 3 Unit (LawState ℚ) (ForceState ℚ 3) :=
  { bookPile with mech := { bookState.mech with laws := fun _ => .mcc (fun i => if i % 2 = 0 then 9 else 7) (some fun _ => isoT 5) leafStrain } }

theorem bed_clay : ClaySlab bookGrid 2 7 bookOf leafStrain (fun i => if i % 2 = 0 then 9 else 7) (fun _ => isoT 5) leafStrain
    (fun i => if i % 2 = 0 then 9 else 7) (fun _ => isoT 5) leafBody.stress sandBody.position where
  same q _ := by
    have : (bookOf q).val % 2 = q.val % 2 := Nat.mod_mod _ _
    simp only [leafStrain, this]
    exact ⟨trivial, trivial, trivial⟩
  plane i := pile_sand.plane i
  ref _ := Across.iso 5
  stress _ := ⟨rfl, rfl, rfl, rfl⟩

theorem leafClay_regular : Regular uslCutoff leafClay leafBed.world :=
  ⟨leaf_regular.1, leaf_regular.2, leaf_regular.3, leaf_regular.4⟩

theorem bookClay_regular : Regular uslCutoff bookClay bookBed.world :=
  ⟨bookSand_regular.1, bookSand_regular.2, bookSand_regular.3, bookSand_regular.4⟩

set_option maxRecDepth 100000 in
theorem leafClay_ok : (uslCall ratFns leafClay leafBed).isOk = true := by decide +kernel

set_option maxRecDepth 100000 in
theorem bookClay_ok : (uslCall ratFns bookClay bookBed).isOk = true := by decide +kernel

set_option maxRecDepth 100000 in
theorem bookClay_slow : checkOk (uslCall ratFns bookClay bookBed) (fun s => match s.world.bodies (0 : Fin 1) with
      | .rigid _ => false
      | .deformable s' => (List.finRange 10).all fun p =>
          s'.position p 2 - sandBody.position p 2 ≤ 1 / 10 ∧ -(1 / 10) ≤ s'.position p 2 - sandBody.position p 2) = true := by
  decide +kernel

/-- `slab_clay_run_partial` on one step of the two points and the five layers above them: the point in the middle layer moves with the point
of the plane, and has its stress and volume. -/
example : ∃ st' ut' t2 t3, uslCall ratFns leafClay leafBed = .ok st' ∧ uslCall ratFns bookClay bookBed = .ok ut' ∧
    st'.world.bodies (0 : Fin 1) = .deformable t2 ∧ ut'.world.bodies (0 : Fin 1) = .deformable t3 ∧
    (∀ a : Fin 2, t3.velocity 5 a.castSucc = t2.velocity 1 a) ∧ t3.velocity 5 2 = 0 ∧ t3.stress 5 = t2.stress 1 ∧ t3.volume 5 = 1 * t2.volume 1 := by
  obtain ⟨st', h⟩ := isOk_ok leafClay_ok
  obtain ⟨ut', h'⟩ := isOk_ok bookClay_ok
  have hslow := checkOk_ok bookClay_slow ut' h'
  have hbound : ∀ s2 : MPState ℚ 3 10, ut'.world.bodies (0 : Fin 1) = .deformable s2 → ∀ p,
      |s2.position p 2 - sandBody.position p 2| ≤ 1 / 10 := by
    intro s2 e2 p
    rw [e2] at hslow
    simp only [List.all_eq_true, List.mem_finRange, true_implies, decide_eq_true_eq] at hslow
    have := hslow p
    exact abs_le.mpr ⟨this.2, this.1⟩
  obtain ⟨t2, t3, η, η', γ, γ', b2, b3, k2, k3, q, r⟩ := slab_clay_run_partial (sv := leafClay) (tv := bookClay) (fl := ratFns) (ops := plainOps) (pr := slabClay) [([(0 : Fin 1)], 0)]
    [([(0 : Fin 1)], 0)] rfl rfl (fun _ => rfl) (fun _ => rfl) 1 (runSteps_succ_ok.mpr ⟨_, rfl, h⟩) (runSteps_succ_ok.mpr ⟨_, rfl, h'⟩)
    (fun i hi si hs => by
      obtain rfl : i = 0 := by omega
      have : leafBed = si := by simpa [runSteps] using hs
      exact this ▸ leafClay_regular)
    (fun i hi si hs => by
      obtain rfl : i = 0 := by omega
      have : bookBed = si := by simpa [runSteps] using hs
      exact this ▸ bookClay_regular) rfl rfl (c := leafCoupling) rfl rfl (d := bookCoupling) rfl rfl rfl book_over
    ⟨fun a => by fin_cases a <;> simp [gridAccel, leafBed, bookBed, bookPile, leafState, bookState, leafCoupling, bookCoupling],
      by simp [gridAccel, bookBed, bookPile, bookState, bookCoupling]⟩ (s2 := leafBody) (s3 := sandBody) rfl rfl (lo := 2) (hi := 7) (w := 1 / 10)
    (by norm_num) (by decide +kernel) (by norm_num) (by
      intro k hk st1 st2 e1 e2 s1 s2 b1 b2 p
      obtain rfl : k = 0 := by omega
      have : bookBed = st1 := by simpa [runSteps] using e1
      subst this
      rw [h'] at e2
      cases e2
      have b1 := Body.deformable.inj b1
      subst b1
      change _ ≤ 1 / 10 * 1
      rw [mul_one]
      exact hbound s2 b2 p) (of := bookOf) rfl rfl bed_clay (ξ := fun _ => 1 / 2) sand_slab
  have hin : InLayers bookGrid (2 + ((1 : ℕ) : ℚ) * (2 * halfWidth Kernel.linear + 1 / 10)) (7 - ((1 : ℕ) : ℚ) * (2 * halfWidth Kernel.linear + 1 / 10))
      (t3.position 5) := by
    intro d
    have h1 := abs_le.mp (hbound t3 b3 5)
    have h2 : sandBody.position 5 2 = 5 / 2 := by decide +kernel
    have e2 : (zGrid bookGrid).origin = fun _ => (-2 : ℚ) := by
      funext d
      simp [zGrid, GridDomain.create]
    have e3 : (zGrid bookGrid).cellSize = 1 := rfl
    rw [h2] at h1
    unfold cellCoord
    rw [e2, e3]
    simp only [halfWidth]
    push_cast
    constructor <;> linarith [h1.1, h1.2]
  exact ⟨st', ut', t2, t3, h, h', b2, b3, (q.velocity 5 hin).1, (q.velocity 5 hin).2, q.stress 5 hin, q.volume 5 hin⟩

end Hydrax
