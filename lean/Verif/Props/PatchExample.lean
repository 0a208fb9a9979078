import Verif.Props.PatchTest
import Verif.Props.Momentum

/-!
# Concrete filled blocks for C129, and what goes wrong when the arrangement is not regular
-/

namespace Hydrax
open Spec

/-- A square of five by five points, one in the middle of every cell of the box `[0, 5]²` with unit cells. -/
def squareBody (σ : ℚ → Mat3 ℚ) : MPState ℚ 2 25 :=
  MPState.create
    { position := fun p => ![((p.val / 5 : ℕ) : ℚ) + 1 / 2, ((p.val % 5 : ℕ) : ℚ) + 1 / 2]
      mass := some fun _ => 2
      volume := some fun _ => 1
      stress := some fun p => σ (((p.val % 5 : ℕ) : ℚ) + 1 / 2) }

abbrev squareGrid : GridDomain ℚ 2 := GridDomain.create (fun _ => 0) (fun _ => 5) 1 2

theorem squareGrid_origin : squareGrid.origin = fun _ => (-2 : ℚ) := by
  funext d
  simp [GridDomain.create]

theorem squareGrid_cell : squareGrid.cellSize = 1 := rfl

theorem square_coord (σ : ℚ → Mat3 ℚ) (p : Fin 25) :
    cellCoord squareGrid ((squareBody σ).position p) = ![((p.val / 5 : ℕ) : ℚ) + 5 / 2, ((p.val % 5 : ℕ) : ℚ) + 5 / 2] := by
  funext d
  have : (squareBody σ).position p = ![((p.val / 5 : ℕ) : ℚ) + 1 / 2, ((p.val % 5 : ℕ) : ℚ) + 1 / 2] := rfl
  rw [this]
  unfold cellCoord
  rw [squareGrid_origin, squareGrid_cell]
  fin_cases d
  · simp; ring
  · simp; ring

theorem square_filled (σ : ℚ → Mat3 ℚ) : Filled squareGrid (fun _ => 2) (fun _ => 7) (fun _ : Fin 25 => (0 : Fin 1)) (fun _ _ => 1 / 2)
    (squareBody σ).position := by
  constructor
  · intro p _
    refine ⟨![((p.val / 5 : ℕ) : ℤ) + 2, ((p.val % 5 : ℕ) : ℤ) + 2], fun d => ?_⟩
    rw [square_coord]
    generalize p.val / 5 = i, p.val % 5 = j
    fin_cases d
    · simp; ring
    · simp; ring
  · intro b k hk
    have hint : ∀ d, 2 ≤ k d ∧ k d < 7 := fun d => by
      obtain ⟨h1, h2⟩ := hk d
      constructor
      · by_contra h
        have : (k d : ℚ) ≤ 1 := by exact_mod_cast (by omega : k d ≤ 1)
        linarith
      · have : (k d : ℚ) < 7 := by linarith
        exact_mod_cast this
    obtain ⟨h0a, h0b⟩ := hint 0
    obtain ⟨h1a, h1b⟩ := hint 1
    refine ⟨⟨(k 0 - 2).toNat * 5 + (k 1 - 2).toNat, by omega⟩, ⟨Subsingleton.elim _ _, fun d => ?_⟩, ?_⟩
    · rw [square_coord]
      have e0 : ((k 0 - 2).toNat * 5 + (k 1 - 2).toNat) / 5 = (k 0 - 2).toNat := by omega
      have e1 : ((k 0 - 2).toNat * 5 + (k 1 - 2).toNat) % 5 = (k 1 - 2).toNat := by omega
      have c0 : (((k 0 - 2).toNat : ℕ) : ℚ) = k 0 - 2 := by
        have : (((k 0 - 2).toNat : ℕ) : ℤ) = k 0 - 2 := by omega
        exact_mod_cast congrArg (fun x : ℤ => (x : ℚ)) this
      have c1 : (((k 1 - 2).toNat : ℕ) : ℚ) = k 1 - 2 := by
        have : (((k 1 - 2).toNat : ℕ) : ℤ) = k 1 - 2 := by omega
        exact_mod_cast congrArg (fun x : ℤ => (x : ℚ)) this
      simp only [e0, e1, c0, c1]
      fin_cases d
      · simp; ring
      · simp; ring
    · rintro p ⟨-, hp⟩
      have p0 := hp 0
      have p1 := hp 1
      rw [square_coord] at p0 p1
      simp only [Matrix.cons_val_zero, Matrix.cons_val_one] at p0 p1
      have q0 : (((p.val / 5 : ℕ) : ℤ) : ℚ) = ((k 0 - 2 : ℤ) : ℚ) := by
        generalize p.val / 5 = i at p0 ⊢
        push_cast
        linarith
      have q1 : (((p.val % 5 : ℕ) : ℤ) : ℚ) = ((k 1 - 2 : ℤ) : ℚ) := by
        generalize p.val % 5 = i at p1 ⊢
        push_cast
        linarith
      have q0 : ((p.val / 5 : ℕ) : ℤ) = k 0 - 2 := by exact_mod_cast q0
      have q1 : ((p.val % 5 : ℕ) : ℤ) = k 1 - 2 := by exact_mod_cast q1
      apply Fin.ext
      simp only
      omega

/-- Linear stress over the height: `σ₀` at the bottom, growing by `τ`. -/
def layered (σ₀ τ : Mat3 ℚ) (y : ℚ) : Mat3 ℚ := σ₀ + y • τ

theorem square_moving (σ₀ τ : Mat3 ℚ) : MovingPatch squareGrid (fun _ => 2) (fun _ => 7) (fun _ : Fin 25 => (0 : Fin 1)) (fun _ _ => 1 / 2)
    (fun _ => 2) (fun _ => 1) (fun _ => σ₀) ![0, τ] 0 (squareBody (layered σ₀ τ)) where
  filled := square_filled _
  mass _ _ := rfl
  volume _ _ := rfl
  stress p _ := by
    rw [Fin.sum_univ_two]
    simp [squareBody, MPState.create, layered]
  velocity _ _ := rfl
  plane _ _ _ := rfl
  consistent p _ := by
    simp [squareBody, MPState.create]

/-- `patch_force` at the node in the middle of the square: the layered stress gives minus the volume times the divergence. -/
example (gr : GridArrays ℚ 2) : (p2gBody (compute .linear squareGrid (squareBody (layered !![5, 0, 0; 0, 7, 0; 0, 0, 5] !![1, 3, 0; 3, 4, 0; 0, 0, 1])).position)
    (squareBody (layered !![5, 0, 0; 0, 7, 0; 0, 0, 5] !![1, 3, 0; 3, 4, 0; 0, 0, 1])) gr).force (nodeHashOf squareGrid ![4, 4]) 1 = -4 := by
  have hn : InnerNode .linear squareGrid (fun _ => 2) (fun _ => 7) (nodeHashOf squareGrid ![4, 4]) := by
    unfold InnerNode
    decide +kernel
  rw [patch_force (.inl rfl) .linear (create_inv _ _ _ (by norm_num) _) (square_moving _ _).toPatch (fun _ => rfl)
    (fun _ => .inr fun _ _ z h => by
      have : (1 : ℚ) = ((2 * z : ℤ) : ℚ) := by push_cast; linarith
      have : (1 : ℤ) = 2 * z := by exact_mod_cast this
      omega) gr hn 1]
  simp [stressDiv, trunc3, Fin.sum_univ_two]

/-- One body of 25 points. -/
abbrev sqSz : Sz := { P := 1, G := 1, C := 1, S := 1, D := 0, np := fun _ => 25 }

def sqCoupling : Coupling sqSz := { ker := .linear, p := (0 : Fin 1), g := (0 : Fin 1), c := (0 : Fin 1), s := (0 : Fin 1), skip := false }

/-- The elastic square under gravity. -/
def sqSolver : Solver sqSz ℚ 2 Unit (LawState ℚ) (ForceState ℚ 2) :=
  { alpha := 99 / 100
    domains := fun _ => squareGrid
    couplings := [sqCoupling]
    laws := fun _ => elasticLaw 1000 (1 / 4) false
    forces := [gravityForce true [] [(0 : Fin 1)] 0]
    sdfs := Fin.elim0
    sharpness := 10 }

def sqState (b : MPState ℚ 2 25) (dt : ℚ) : SimState sqSz ℚ 2 Unit (LawState ℚ) (ForceState ℚ 2) :=
  { world := { bodies := fun _ => .deformable b, sdfs := Fin.elim0 }
    mech := { laws := fun _ => .elastic fun _ => 0, solvers := fun _ _ => 0, forces := [.gravity ![0, -10]] }
    time := 0
    step := 0
    dt := dt }

/-- The stress that carries the weight of the square: compression grows downwards by the weight per volume, 20. -/
def weightStress : ℚ → Mat3 ℚ := layered !![100, 0, 0; 0, 100, 0; 0, 0, 100] !![0, 0, 0; 0, -20, 0; 0, 0, 0]

set_option maxRecDepth 100000 in
theorem sq_masses : ((List.range 100).all fun j =>
    let m := nodeMass (compute .linear squareGrid (squareBody weightStress).position) (squareBody weightStress).mass j
    m ≤ 0 || uslCutoff < m) = true := by decide +kernel

set_option maxRecDepth 100000 in
theorem sq_ok : (uslCall ratFns sqSolver (sqState (squareBody weightStress) (1 / 100))).isOk = true := by decide +kernel

set_option maxRecDepth 100000 in
theorem sq_slow : checkOk (uslCall ratFns sqSolver (sqState (squareBody weightStress) (1 / 100))) (fun s => match s.world.bodies (0 : Fin 1) with
      | .rigid _ => false
      | .deformable s' => (List.finRange 25).all fun p => (List.finRange 2).all fun d =>
          s'.position p d - (squareBody weightStress).position p d ≤ 1 / 10 ∧ -(1 / 10) ≤ s'.position p d - (squareBody weightStress).position p d) = true := by
  decide +kernel

theorem square_inBox (σ : ℚ → Mat3 ℚ) (p : Fin 25) : InBox (fun _ => (0 : ℚ)) (fun _ => 5) ((squareBody σ).position p) := by
  intro d
  have : (squareBody σ).position p = ![((p.val / 5 : ℕ) : ℚ) + 1 / 2, ((p.val % 5 : ℕ) : ℚ) + 1 / 2] := rfl
  rw [this]
  have hi : ((p.val / 5 : ℕ) : ℚ) ≤ 4 := by exact_mod_cast (by omega : p.val / 5 ≤ 4)
  have hj : ((p.val % 5 : ℕ) : ℚ) ≤ 4 := by exact_mod_cast (by omega : p.val % 5 ≤ 4)
  have hi0 : (0 : ℚ) ≤ ((p.val / 5 : ℕ) : ℚ) := Nat.cast_nonneg _
  have hj0 : (0 : ℚ) ≤ ((p.val % 5 : ℕ) : ℚ) := Nat.cast_nonneg _
  fin_cases d
  · simp only [Fin.zero_eta, Matrix.cons_val_zero]
    constructor <;> linarith
  · simp only [Fin.mk_one, Matrix.cons_val_one, Matrix.cons_val_fin_one]
    constructor <;> linarith

theorem sq_regular : Regular uslCutoff sqSolver (sqState (squareBody weightStress) (1 / 100)).world := by
  have hgc := goodCache_of_inBox (.inl rfl) .linear (fun _ => (0 : ℚ)) (fun _ => 5) 1 (by norm_num) 2 (by norm_num)
    (squareBody weightStress).position (square_inBox weightStress)
  have hN : squareGrid.numCells = 100 := by decide +kernel
  refine ⟨by simp [sqSolver], ?_, ?_, ?_⟩
  · intro c hc _
    obtain rfl : c = sqCoupling := by simpa [sqSolver] using hc
    exact ⟨fun _ => 0, fun _ => 5, 1, 2, by norm_num, by norm_num, rfl, square_inBox _⟩
  · intro c hc _ t ht
    obtain rfl : c = sqCoupling := by simpa [sqSolver] using hc
    have ht : squareBody weightStress = t := Body.deformable.inj ht
    subst ht
    intro q
    change (0 : ℚ) < 2
    norm_num
  · intro g j
    have hsum : gridSum sqSolver.couplings g (fun c =>
        ((sqState (squareBody weightStress) (1 / 100)).world.bodies c.p).nodeMass c.ker (sqSolver.domains c.g) j) =
        nodeMass (compute .linear squareGrid (squareBody weightStress).position) (squareBody weightStress).mass j := by
      have hg : g = (0 : Fin 1) := Subsingleton.elim _ _
      subst hg
      simp only [sqSolver, gridSum, List.map_cons, List.map_nil, List.sum_cons, List.sum_nil, add_zero]
      rw [if_pos ⟨rfl, rfl⟩]
      rfl
    rw [hsum]
    intro h0
    by_cases hj : j < 100
    · have h3 := sq_masses
      simp only [List.all_eq_true, List.mem_range, Bool.or_eq_true, decide_eq_true_eq] at h3
      rcases h3 j hj with h | h
      · exact absurd h0 (not_lt.mpr h)
      · exact h
    · exfalso
      have : nodeMass (compute .linear squareGrid (squareBody weightStress).position) (squareBody weightStress).mass j = 0 :=
        scatterAdd_eq_zero _ _ _ fun i hi => absurd (hN ▸ hi ▸ hgc.hash_lt i) hj
      linarith

theorem half_off (z : ℤ) : (1 / 2 : ℚ) ≠ z := fun h => by
  have : (1 : ℚ) = ((2 * z : ℤ) : ℚ) := by push_cast; linarith
  have : (1 : ℤ) = 2 * z := by exact_mod_cast this
  omega

/-- `patch_equilibrium_partial` on the square that carries its weight: the point in the middle keeps its place, stands still and keeps its stress. -/
example : ∃ st' s', uslCall ratFns sqSolver (sqState (squareBody weightStress) (1 / 100)) = .ok st' ∧
    st'.world.bodies (0 : Fin 1) = .deformable s' ∧ s'.position 12 = ![5 / 2, 5 / 2] ∧ s'.velocity 12 = 0 ∧
    s'.stress 12 = !![100, 0, 0; 0, 50, 0; 0, 0, 100] := by
  obtain ⟨st', h⟩ := isOk_ok sq_ok
  have hslow := checkOk_ok sq_slow st' h
  have hrun : runSteps (uslCall ratFns sqSolver) 1 (sqState (squareBody weightStress) (1 / 100)) = .ok st' :=
    runSteps_succ_ok.mpr ⟨_, rfl, h⟩
  have hbound : ∀ s2 : MPState ℚ 2 25, st'.world.bodies (0 : Fin 1) = .deformable s2 → ∀ p d,
      |s2.position p d - (squareBody weightStress).position p d| ≤ 1 / 10 := by
    intro s2 e2 p d
    rw [e2] at hslow
    simp only [List.all_eq_true, List.mem_finRange, true_implies, decide_eq_true_eq] at hslow
    have := hslow p d
    exact abs_le.mpr ⟨this.2, this.1⟩
  obtain ⟨s', hb', q⟩ := patch_equilibrium_partial (sv := sqSolver) [([(0 : Fin 1)], 0)] (.inl rfl) rfl
    (fun _ => LibLaw.onlyStress (.elastic 1000 (1 / 4) false)) (fun _ => elastic_holdsAtRest 1000 (1 / 4) false) (fun _ => rfl) 1 hrun
    (fun i hi si hs => by
      obtain rfl : i = 0 := by omega
      have : sqState (squareBody weightStress) (1 / 100) = si := by simpa [runSteps] using hs
      exact this ▸ sq_regular) sqCoupling (by simp [sqSolver]) rfl (fun b hb _ _ => by simpa [sqSolver] using hb) rfl
    (square_moving _ _) (by simp) (fun a => by
      fin_cases a
      · simp [stressDiv, trunc3, Fin.sum_univ_two, gridAccel, sqState, sqCoupling]
      · simp [stressDiv, trunc3, Fin.sum_univ_two, gridAccel, sqState, sqCoupling]
        norm_num)
    (fun _ => .inr fun _ _ z => half_off z) (w := 1 / 10) (by norm_num) (by
      intro k hk st1 st2 e1 e2 s1 s2 b1 b2 p d
      obtain rfl : k = 0 := by omega
      have : sqState (squareBody weightStress) (1 / 100) = st1 := by simpa [runSteps] using e1
      subst this
      rw [h] at e2
      cases e2
      have b1 := Body.deformable.inj b1
      subst b1
      change _ ≤ 1 / 10 * 1
      rw [mul_one]
      exact hbound s2 b2 p d)
  have hin : InBlock squareGrid (fun d => 2 + ((1 : ℕ) : ℚ) * (2 * halfWidth Kernel.linear + 1 / 10)) (fun d => 7 - ((1 : ℕ) : ℚ) * (2 * halfWidth Kernel.linear + 1 / 10))
      (s'.position 12) := by
    intro d
    have h1 := abs_le.mp (hbound s' hb' 12 d)
    have h2 : (squareBody weightStress).position 12 d = 5 / 2 := by
      fin_cases d <;> simp [squareBody, MPState.create] <;> norm_num
    rw [h2] at h1
    unfold cellCoord
    rw [squareGrid_origin, squareGrid_cell]
    simp only [halfWidth]
    push_cast
    constructor <;> linarith [h1.1, h1.2]
  obtain ⟨q1, q2, q3, -⟩ := q 12 hin
  refine ⟨st', s', h, hb', ?_, q2, ?_⟩
  · rw [q1]
    funext d
    fin_cases d <;> simp [squareBody, MPState.create] <;> norm_num
  · rw [q3]
    funext i j
    fin_cases i <;> fin_cases j <;> simp [squareBody, MPState.create, weightStress, layered] <;> norm_num

/-- The same square with uniform stress, its middle point moved aside by an eighth of a cell in both directions. -/
def dentedBody (σ : Mat3 ℚ) : MPState ℚ 2 25 :=
  { squareBody (layered σ 0) with
    position := fun p => if p = 12 then ![5 / 2 + 1 / 8, 5 / 2 + 1 / 8] else (squareBody (layered σ 0)).position p }

set_option maxRecDepth 100000 in
theorem dented_facts : (uslCall ratFns sqSolver (sqState (dentedBody (fun i j => if i = j then 100 else 0)) (1 / 100))).isOk = true ∧
    checkOk (uslCall ratFns sqSolver (sqState (dentedBody (fun i j => if i = j then 100 else 0)) (1 / 100))) (fun s => match s.world.bodies (0 : Fin 1) with
      | .rigid _ => false
      | .deformable s' => (s'.velocity 12 0 == 0) = false ∧ (s'.velocity 12 1 == -1 / 10) = false) = true := by
  decide +kernel

/-- **C129, refuted for irregular arrangements.** A uniform pressure of 100 has no divergence, so the body at rest should just fall; but with one point an
eighth of a cell out of place that point is pushed sideways and falls with another acceleration, although it lies deep inside the body. -/
theorem dented_fall_fails : ∃ st' s', uslCall ratFns sqSolver (sqState (dentedBody (fun i j => if i = j then 100 else 0)) (1 / 100)) = .ok st' ∧
    st'.world.bodies (0 : Fin 1) = .deformable s' ∧
    InBlock squareGrid (fun _ => 2 + 2 * halfWidth Kernel.linear) (fun _ => 7 - 2 * halfWidth Kernel.linear) ((dentedBody 0).position 12) ∧
    s'.velocity 12 0 ≠ 0 ∧ s'.velocity 12 1 ≠ -1 / 10 := by
  obtain ⟨st', h⟩ := isOk_ok dented_facts.1
  have := checkOk_ok dented_facts.2 st' h
  cases hb : st'.world.bodies (0 : Fin 1) with
  | rigid r => simp only [hb] at this; exact absurd this (by simp)
  | deformable s' =>
    simp only [hb, decide_eq_true_eq, beq_eq_false_iff_ne] at this
    refine ⟨st', s', h, hb, ?_, this.1, this.2⟩
    unfold InBlock
    decide +kernel

end Hydrax
