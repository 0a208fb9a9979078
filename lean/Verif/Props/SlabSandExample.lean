import Verif.Props.SlabSand
import Verif.Props.SlabExample

/-!
# The slab of C159 as sand
-/

namespace Hydrax
open Spec

/-- The five layers of the two points, one unit thick. -/
def sandBody : MPState ℚ 3 10 :=
  MPState.create
    { position := bookBody.position
      velocity := some bookBody.velocity
      mass := some fun q => leafBody.mass (bookOf q)
      volume := some fun q => leafBody.volume (bookOf q)
      stress := some fun q => leafBody.stress (bookOf q) }

theorem sand_slab : Slab bookGrid 2 7 1 bookOf (fun _ => 1 / 2) leafBody sandBody where
  layers := book_filled
  place q _ d := by fin_cases d <;> rfl
  velocity q _ := ⟨fun a => by fin_cases a <;> rfl, rfl⟩
  load q _ := ⟨fun a => (mul_zero (1 : ℚ)).symm, rfl⟩
  mass _ _ := (one_mul _).symm
  volume _ _ := (one_mul _).symm
  volume0 _ _ := (one_mul _).symm
  stress _ _ := rfl
  F _ _ := rfl
  shear _ := ⟨rfl, rfl⟩
  planar _ := rfl

/-- Sand that keeps its density above the reference, with strains that differ between the two points. -/
def leafSand : Solver leafSz ℚ 2 Unit (LawState ℚ) (ForceState ℚ 2) :=
  { leafSolver with laws := fun _ => dpLaw ratFns (DPParams.mk' 100 (1 / 4) (1 / 2) 1 1 (1 / 4) 0 1) false }

def bookSand : Solver bookSz ℚ 3 Unit (LawState ℚ) (ForceState ℚ 3) :=
  { bookSolver with laws := fun _ => dpLaw ratFns (DPParams.mk' 100 (1 / 4) (1 / 2) 1 1 (1 / 4) 0 1) false }

def leafStrain (i : ℕ) : Mat3 ℚ := if i % 2 = 0 then !![1 / 10, 1 / 20, 0; 1 / 20, 0, 0; 0, 0, 1 / 10] else 0

def leafPile : SimState leafSz ℚ 2 Unit (LawState ℚ) (ForceState ℚ 2) :=
  { leafState with mech := { leafState.mech with laws := fun _ => .dp leafStrain (fun i => if i % 2 = 0 then 1 else 0) fun _ => 2 } }

def bookPile : SimState bookSz ℚ 3 Unit (LawState ℚ) (ForceState ℚ 3) :=
  { bookState with
    world := { bodies := fun _ => .deformable sandBody, sdfs := Fin.elim0 }
    mech := { bookState.mech with laws := fun _ => .dp leafStrain (fun i => if i % 2 = 0 then 1 else 0) fun _ => 2 } }

theorem pile_sand : SandSlab bookGrid 2 7 bookOf leafStrain (fun i => if i % 2 = 0 then 1 else 0) (fun _ => 2) leafStrain
    (fun i => if i % 2 = 0 then 1 else 0) (fun _ => 2) sandBody.position where
  same q _ := by
    have : (bookOf q).val % 2 = q.val % 2 := Nat.mod_mod _ _
    simp only [leafStrain, this]
    exact ⟨trivial, trivial, trivial⟩
  plane i := by
    unfold leafStrain
    split_ifs <;> exact ⟨rfl, rfl, rfl, rfl⟩

theorem leafSand_regular : Regular uslCutoff leafSand leafPile.world :=
  ⟨leaf_regular.1, leaf_regular.2, leaf_regular.3, leaf_regular.4⟩

set_option maxRecDepth 100000 in
theorem leafSand_ok : (uslCall ratFns leafSand leafPile).isOk = true := by decide +kernel

set_option maxRecDepth 100000 in
theorem bookSand_ok : (uslCall ratFns bookSand bookPile).isOk = true := by decide +kernel

set_option maxRecDepth 100000 in
theorem bookSand_slow : checkOk (uslCall ratFns bookSand bookPile) (fun s => match s.world.bodies (0 : Fin 1) with
      | .rigid _ => false
      | .deformable s' => (List.finRange 10).all fun p =>
          s'.position p 2 - sandBody.position p 2 ≤ 1 / 10 ∧ -(1 / 10) ≤ s'.position p 2 - sandBody.position p 2) = true := by
  decide +kernel

set_option maxRecDepth 100000 in
theorem sand_masses : ((List.range 360).all fun j =>
    let m := nodeMass (compute .linear bookGrid sandBody.position) sandBody.mass j
    m ≤ 0 || uslCutoff < m) = true := by decide +kernel

theorem sand_inBox (p : Fin 10) : InBox (fun _ => (0 : ℚ)) ![1, 1, 5] (sandBody.position p) := by
  revert p
  unfold InBox
  decide +kernel

theorem bookSand_regular : Regular uslCutoff bookSand bookPile.world := by
  have hgc := goodCache_of_inBox (.inr rfl) .linear (fun _ => (0 : ℚ)) ![1, 1, 5] 1 (by norm_num) 2 (by norm_num)
    sandBody.position sand_inBox
  refine ⟨by simp [bookSand, bookSolver], ?_, ?_, ?_⟩
  · intro c hc _
    obtain rfl : c = bookCoupling := by simpa [bookSand, bookSolver] using hc
    exact ⟨fun _ => 0, ![1, 1, 5], 1, 2, by norm_num, by norm_num, rfl, sand_inBox⟩
  · intro c hc _ t ht
    obtain rfl : c = bookCoupling := by simpa [bookSand, bookSolver] using hc
    have ht : sandBody = t := Body.deformable.inj ht
    subst ht
    change ∀ q : Fin 10, 0 < sandBody.mass q
    decide +kernel
  · intro g j
    have hsum : gridSum bookSand.couplings g (fun c =>
        (bookPile.world.bodies c.p).nodeMass c.ker (bookSand.domains c.g) j) =
        nodeMass (compute .linear bookGrid sandBody.position) sandBody.mass j := by
      have hg : g = (0 : Fin 1) := Subsingleton.elim _ _
      subst hg
      simp only [bookSand, bookSolver, gridSum, List.map_cons, List.map_nil, List.sum_cons, List.sum_nil, add_zero]
      rw [if_pos ⟨rfl, rfl⟩]
      rfl
    rw [hsum]
    intro h0
    by_cases hj : j < 360
    · have h3 := sand_masses
      simp only [List.all_eq_true, List.mem_range, Bool.or_eq_true, decide_eq_true_eq] at h3
      rcases h3 j hj with h | h
      · exact absurd h0 (not_lt.mpr h)
      · exact h
    · exfalso
      have : nodeMass (compute .linear bookGrid sandBody.position) sandBody.mass j = 0 :=
        scatterAdd_eq_zero _ _ _ fun i hi => absurd (book_cells ▸ hi ▸ hgc.hash_lt i) hj
      linarith

/-- `slab_sand_run_partial` on one step of the two points and the five layers above them: the point in the middle layer moves with the point
of the plane, and has its stress and volume. -/
example : ∃ st' ut' t2 t3, uslCall ratFns leafSand leafPile = .ok st' ∧ uslCall ratFns bookSand bookPile = .ok ut' ∧
    st'.world.bodies (0 : Fin 1) = .deformable t2 ∧ ut'.world.bodies (0 : Fin 1) = .deformable t3 ∧
    (∀ a : Fin 2, t3.velocity 5 a.castSucc = t2.velocity 1 a) ∧ t3.velocity 5 2 = 0 ∧ t3.stress 5 = t2.stress 1 ∧ t3.volume 5 = 1 * t2.volume 1 := by
  obtain ⟨st', h⟩ := isOk_ok leafSand_ok
  obtain ⟨ut', h'⟩ := isOk_ok bookSand_ok
  have hslow := checkOk_ok bookSand_slow ut' h'
  have hbound : ∀ s2 : MPState ℚ 3 10, ut'.world.bodies (0 : Fin 1) = .deformable s2 → ∀ p,
      |s2.position p 2 - sandBody.position p 2| ≤ 1 / 10 := by
    intro s2 e2 p
    rw [e2] at hslow
    simp only [List.all_eq_true, List.mem_finRange, true_implies, decide_eq_true_eq] at hslow
    have := hslow p
    exact abs_le.mpr ⟨this.2, this.1⟩
  obtain ⟨t2, t3, η, η', γ, γ', b2, b3, k2, k3, q, r⟩ := slab_sand_run_partial (sv := leafSand) (tv := bookSand) (fl := ratFns) (pr := DPParams.mk' 100 (1 / 4) (1 / 2) 1 1 (1 / 4) 0 1) [([(0 : Fin 1)], 0)]
    [([(0 : Fin 1)], 0)] rfl rfl (fun _ => rfl) (fun _ => rfl) 1 (runSteps_succ_ok.mpr ⟨_, rfl, h⟩) (runSteps_succ_ok.mpr ⟨_, rfl, h'⟩)
    (fun i hi si hs => by
      obtain rfl : i = 0 := by omega
      have : leafPile = si := by simpa [runSteps] using hs
      exact this ▸ leafSand_regular)
    (fun i hi si hs => by
      obtain rfl : i = 0 := by omega
      have : bookPile = si := by simpa [runSteps] using hs
      exact this ▸ bookSand_regular) rfl rfl (c := leafCoupling) rfl rfl (d := bookCoupling) rfl rfl rfl book_over
    ⟨fun a => by fin_cases a <;> simp [gridAccel, leafPile, bookPile, leafState, bookState, leafCoupling, bookCoupling],
      by simp [gridAccel, bookPile, bookState, bookCoupling]⟩ (s2 := leafBody) (s3 := sandBody) rfl rfl (lo := 2) (hi := 7) (w := 1 / 10)
    (by norm_num) (by decide +kernel) (by norm_num) (by
      intro k hk st1 st2 e1 e2 s1 s2 b1 b2 p
      obtain rfl : k = 0 := by omega
      have : bookPile = st1 := by simpa [runSteps] using e1
      subst this
      rw [h'] at e2
      cases e2
      have b1 := Body.deformable.inj b1
      subst b1
      change _ ≤ 1 / 10 * 1
      rw [mul_one]
      exact hbound s2 b2 p) (of := bookOf) rfl rfl pile_sand (ξ := fun _ => 1 / 2) sand_slab
  have hin : InLayers bookGrid (2 + ((1 : ℕ) : ℚ) * (2 * halfWidth Kernel.linear + 1 / 10)) (7 - ((1 : ℕ) : ℚ) * (2 * halfWidth Kernel.linear + 1 / 10))
      (t3.position 5) := by
    intro d
    have h1 := abs_le.mp (hbound t3 b3 5)
    have h2 : sandBody.position 5 2 = 5 / 2 := by decide +kernel
    have e2 : (zGrid bookGrid).origin = fun _ => (-2 : ℚ) := by
      funext d
      simp [zGrid, GridDomain.create]
    have e3 : (zGrid bookGrid).cellSize = 1 := rfl
    rw [h2] at h1
    unfold cellCoord
    rw [e2, e3]
    simp only [halfWidth]
    push_cast
    constructor <;> linarith [h1.1, h1.2]
  exact ⟨st', ut', t2, t3, h, h', b2, b3, (q.velocity 5 hin).1, (q.velocity 5 hin).2, q.stress 5 hin, q.volume 5 hin⟩

end Hydrax
