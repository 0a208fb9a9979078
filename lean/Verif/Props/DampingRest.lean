import Verif.Props.DampingEnergy
import Verif.Props.ObstacleRest

/-!
# Damping in a box, and on a slope (C137)
-/

set_option linter.unusedSectionVars false

namespace Hydrax
open Spec

section
variable {z : Sz} {m : ℕ} {LS : Type*} {fn' : MathFns ℝ}
  {sv : Solver z ℝ (m + 1) (SdfState ℝ (m + 1)) LS (ForceState ℝ (m + 1))}

/-- **C137** for boxes of the package (`DomainSDF`) with friction that is not negative. If they do not move at the start, damping never
gives energy, over any number of steps. -/
theorem damping_box_energy_partial (gravs : List (List (Fin z.G) × ℕ)) (gs : List (Fin z.G)) (hgs : gs.Nodup) (fIdx : ℕ)
    (walls : List (Wall z ℝ)) (hdim : m + 1 = 2 ∨ m + 1 = 3)
    (hforces : sv.forces = gravityList gravs ++ dampingForce true [] gs fIdx :: wallList fn' walls) (hL : ∀ c, (sv.laws c).OnlyStress)
    (h0 : 0 ≤ sv.alpha) (h1 : sv.alpha ≤ 1) (hown : OwnGrids sv.couplings) {fn : MathFns ℝ} {cut : ℝ} (n : ℕ)
    (tr : ℕ → SimState z ℝ (m + 1) (SdfState ℝ (m + 1)) LS (ForceState ℝ (m + 1)))
    (h : ∀ k < n, uslCall fn sv (tr k) = .ok (tr (k + 1))) (hr : ∀ k < n, Regular cut sv (tr k).world)
    {a : ℝ} (ha : (tr 0).mech.forces[fIdx]? = some (.damping a)) (ha0 : 0 ≤ a) (ha1 : a ≤ 1) (hdt : 0 ≤ (tr 0).dt)
    (hobs : ∀ w ∈ walls, (∃ d : DomainParams ℝ (m + 1), sv.sdfs w.d = domainSdf d ∧ ∀ i, 0 ≤ d.frictions i) ∧ 0 ≤ w.base ∧
      Still ((tr 0).world.sdfs w.d)) :
    totalKE (tr n).world + ∑ k ∈ Finset.range n, activeSum sv.couplings (fun c =>
        absorbedWork (tr 0).dt ((tr k).world.bodies c.p) ((tr (k + 1)).world.bodies c.p)) ≤
      totalKE (tr 0).world + activeSum sv.couplings (fun c =>
        gravityWork (gridAccel (tr 0).mech.forces gravs c.g) ((tr 0).world.bodies c.p) ((tr n).world.bodies c.p)) := by
  have hlib : ∀ f ∈ sv.forces, LibForce f := by
    intro f hf
    rw [hforces, List.mem_append] at hf
    refine hf.elim (gravityList_lib gravs f) fun hf => ?_
    rcases List.mem_cons.mp hf with rfl | hf
    · exact .damping _ _ _ _
    · exact wallList_lib fn' walls f hf
  have hob : ∀ w ∈ walls, LibObstacle (sv.sdfs w.d) := by
    intro w hw
    obtain ⟨⟨d, hd, hf⟩, -, -⟩ := hobs w hw
    rw [hd]
    exact .domain d hf
  have hst : ∀ k ≤ n, ∀ w ∈ walls, Still ((tr k).world.sdfs w.d) := by
    intro k
    induction k with
    | zero => exact fun _ w hw => (hobs w hw).2.2
    | succ k ih =>
      intro hk w hw
      rw [(usl_sdfs hlib (h k (by omega))).1 w.d]
      exact (libObstacle_rest (hob w hw) (ih (by omega) w hw) _).1
  refine damping_run_energy_partial gravs gs hgs fIdx walls hdim hforces hL h0 h1 hown n tr h hr ha ha0 ha1 hdt ?_
  intro k hk w hw
  obtain ⟨⟨d, hd, hf⟩, o2, -⟩ := hobs w hw
  have hs := (libObstacle_rest (hob w hw) (hst k hk.le w hw) (tr k).dt).1
  have hx := (libObstacle_rest (hob w hw) hs (tr k).dt).2
  refine ⟨⟨fun g _ j => (hx _).1, fun g _ j => (hx _).2.1, fun g _ j => mul_nonneg o2 (hx _).2.2⟩, fun g _ j => ?_⟩
  obtain ⟨upper, i, -, -, hn, -⟩ := (domain_walls d).2.2 ((sv.domains g).positionStack j)
  refine ⟨i, fun b hb => ?_⟩
  have e : (wallGeom sv (tr k) g w.d).normals j = domainNormal d ((sv.domains g).positionStack j) := by
    simp only [wallGeom, hd]
    rfl
  rw [e, hn, if_neg hb]

end

/-! ### Concrete cases -/

/-- The sinking body of `floorState` with damping. -/
def dampedFloorSolver : Solver floorSz ℚ 2 (SdfState ℚ 2) (LawState ℚ) (ForceState ℚ 2) :=
  { floorSolver with forces := [gravityForce true [] [(0 : Fin 1)] 0, dampingForce true [] [(0 : Fin 1)] 1,
      sdfColliderForce ratFns (some (0 : Fin 1)) [(0 : Fin 1)] 0 1] }

def dampedFloorState : SimState floorSz ℚ 2 (SdfState ℚ 2) (LawState ℚ) (ForceState ℚ 2) :=
  { floorState with mech := { floorState.mech with forces := [.gravity ![0, -10], .damping (7 / 10)] } }

set_option maxRecDepth 100000 in
/-- `damping_step_energy_partial` for it. -/
example : ∃ st', uslCall ratFns dampedFloorSolver dampedFloorState = .ok st' ∧
    totalKE st'.world + absorbedWork (1 / 100) (floorState.world.bodies (0 : Fin 1)) (st'.world.bodies (0 : Fin 1)) ≤
      totalKE floorState.world + gravityWork ![0, -10] (floorState.world.bodies (0 : Fin 1)) (st'.world.bodies (0 : Fin 1)) := by
  have hok : (uslCall ratFns dampedFloorSolver dampedFloorState).isOk = true := by decide +kernel
  obtain ⟨st', h⟩ := isOk_ok hok
  refine ⟨st', h, ?_⟩
  have hr : Regular uslCutoff dampedFloorSolver dampedFloorState.world :=
    { single := floor_regular.single, box := floor_regular.box, mass_pos := floor_regular.mass_pos, cutoff := floor_regular.cutoff }
  have := damping_step_energy_partial (fn' := ratFns) [([(0 : Fin 1)], 0)] [(0 : Fin 1)] (by simp) 1
    [{ d := (0 : Fin 1), gs := [(0 : Fin 1)], gap := 0, base := 1 }] (.inl rfl) (sv := dampedFloorSolver) rfl
    (fun _ => LibLaw.onlyStress (.elastic 1000 (1 / 4) false)) (by norm_num [dampedFloorSolver, floorSolver])
    (by norm_num [dampedFloorSolver, floorSolver]) floor_own h hr (a := 7 / 10) rfl (by norm_num) (by norm_num)
    (by norm_num [dampedFloorState, floorState]) (by
      intro w hw
      obtain rfl := List.mem_singleton.mp hw
      refine ⟨⟨floor_rest.still, floor_rest.normal, floor_rest.friction⟩, fun g _ j => ⟨1, fun b hb => ?_⟩⟩
      obtain rfl : b = 0 := by omega
      change (![0, 1] : Fin 2 → ℚ) 0 / _ = 0
      simp)
  have hg : gridAccel (z := floorSz) dampedFloorState.mech.forces [([(0 : Fin 1)], 0)] (0 : Fin 1) = ![0, -10] := by
    funext a
    simp [gridAccel, dampedFloorState]
  have hdt : dampedFloorState.dt = 1 / 100 := rfl
  have hwo : dampedFloorState.world = floorState.world := rfl
  rw [hdt, hwo] at this
  simpa [activeSum, dampedFloorSolver, floorSolver, hg] using this

/-! ### A slope -/

/-- A body on a smooth slope with normal `(3/5, 4/5)`, with damping. -/
def slopeSolver : Solver floorSz ℚ 2 (SdfState ℚ 2) (LawState ℚ) (ForceState ℚ 2) :=
  { floorSolver with
    forces := [gravityForce true [] [(0 : Fin 1)] 0, dampingForce true [] [(0 : Fin 1)] 1,
      sdfColliderForce ratFns (some (0 : Fin 1)) [(0 : Fin 1)] 0 0]
    sdfs := fun _ => baseSdf ratFns (fun _ _ => ![3 / 5, 4 / 5]) (planeDist ![3 / 5, 4 / 5]) fun _ => 0 }

/-- Gravity presses the body against the slope, along which it moves very slowly. -/
def slopeState : SimState floorSz ℚ 2 (SdfState ℚ 2) (LawState ℚ) (ForceState ℚ 2) :=
  { world := { bodies := fun _ => .deformable (MPState.create
                { position := ![![1 / 4, 3 / 4], ![5 / 8, 7 / 8]]
                  velocity := some fun _ => ![4 / 5000, -3 / 5000]
                  mass := some fun _ => 1
                  volume := some fun _ => 1 / 4 })
               sdfs := fun _ => SdfState.create fun _ => 2 }
    mech := { laws := fun _ => .elastic fun _ => 0, solvers := fun _ _ => 0, forces := [.gravity ![-6, -8], .damping (7 / 10)] }
    time := 0
    step := 0
    dt := 1 / 100 }

theorem slope_rest : AtRest slopeSolver slopeState { d := (0 : Fin 1), gs := [(0 : Fin 1)], gap := 0, base := 0 } where
  still := by
    intro g _ j
    have : Still (updateKin ratFns (SdfState.create (dim := 2) fun _ => (2 : ℚ)) (1 / 100)) :=
      still_update ratFns ⟨fun _ => rfl, rfl, fun _ => rfl⟩ _
    exact still_velocity this _
  normal := by
    intro g _ j
    change Spec.dot (fun a => (![3 / 5, 4 / 5] : Fin 2 → ℚ) a / ((∑ b, (![3 / 5, 4 / 5] : Fin 2 → ℚ) b ^ 2) + 1 / 10 ^ 12))
      (fun a => (![3 / 5, 4 / 5] : Fin 2 → ℚ) a / ((∑ b, (![3 / 5, 4 / 5] : Fin 2 → ℚ) b ^ 2) + 1 / 10 ^ 12)) ≤ 1
    norm_num [Spec.dot, Fin.sum_univ_two]
  friction := by
    intro g _ j
    change (0 : ℚ) ≤ 0 * _
    simp

set_option maxRecDepth 100000 in
theorem slope_eval : (uslCall ratFns slopeSolver slopeState).isOk = true ∧
    checkOk (uslCall ratFns slopeSolver slopeState) (fun s => 1000 * totalKE slopeState.world < totalKE s.world ∧
      totalKE slopeState.world + gravityWork ![-6, -8] (slopeState.world.bodies (0 : Fin 1)) (s.world.bodies (0 : Fin 1)) <
        totalKE s.world ∧
      absorbedWork (1 / 100) (slopeState.world.bodies (0 : Fin 1)) (s.world.bodies (0 : Fin 1)) = 0) = true := by
  constructor <;> decide +kernel

/-- **C137** fails on slopes. Damping acts on each component of the force by itself, so that it does not point against the motion. What
it does to a body pressed against a slope at rest throws the body back along the slope, with more than a thousand times the energy it
had. -/
theorem damping_gives_energy : slopeSolver.forces = gravityList [([(0 : Fin 1)], 0)] ++ dampingForce true [] [(0 : Fin 1)] 1 ::
      wallList ratFns [{ d := (0 : Fin 1), gs := [(0 : Fin 1)], gap := 0, base := 0 }] ∧
    AtRest slopeSolver slopeState { d := (0 : Fin 1), gs := [(0 : Fin 1)], gap := 0, base := 0 } ∧
    slopeState.mech.forces[1]? = some (.damping (7 / 10)) ∧
    ∃ st', uslCall ratFns slopeSolver slopeState = .ok st' ∧ 1000 * totalKE slopeState.world < totalKE st'.world ∧
      totalKE slopeState.world + gravityWork ![-6, -8] (slopeState.world.bodies (0 : Fin 1)) (st'.world.bodies (0 : Fin 1)) <
        totalKE st'.world ∧
      absorbedWork (1 / 100) (slopeState.world.bodies (0 : Fin 1)) (st'.world.bodies (0 : Fin 1)) = 0 := by
  refine ⟨rfl, slope_rest, rfl, ?_⟩
  obtain ⟨st', h⟩ := isOk_ok slope_eval.1
  have := checkOk_ok slope_eval.2 st' h
  exact ⟨st', h, by simpa using this⟩

end Hydrax
