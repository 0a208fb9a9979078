import Verif.Props.ObstacleEnergy
import Verif.Props.Galilean
import Verif.Props.Sdf

/-!
# Obstacles of the library at rest, and what two of them do (C136)
-/

set_option linter.unusedSectionVars false

namespace Hydrax
open Spec

section
variable {z : Sz} {m : ℕ} {LS : Type*} {fn' : MathFns ℝ}
  {sv : Solver z ℝ (m + 1) (SdfState ℝ (m + 1)) LS (ForceState ℝ (m + 1))}

/-- An obstacle that neither moves nor turns. -/
structure Spec.Still {dim : ℕ} {K : Type*} [Field K] (s : SdfState K dim) : Prop where
  velocity : ∀ a, s.velocity a = 0
  omega : s.omega = 0
  omega3 : ∀ a, s.omega3 a = 0

theorem still_velocity {dim : ℕ} {K : Type*} [Field K] {s : SdfState K dim} (h : Still s) (x : Fin dim → K) :
    sdfVelocity s x = fun _ => 0 := by
  have hspin : ∀ r a, spinVel dim s r a = 0 := by
    match dim, s, h with
    | 0, _, _ => exact fun _ _ => rfl
    | 1, _, _ => exact fun _ _ => rfl
    | 2, s, h =>
      intro r a
      simp only [spinVel, h.omega]
      fin_cases a <;> simp
    | 3, s, h =>
      intro r a
      simp only [spinVel, cross3, h.omega3]
      fin_cases a <;> simp
    | _ + 4, _, _ => exact fun _ _ => rfl
  funext a
  simp only [sdfVelocity, h.velocity, hspin, add_zero]

theorem still_update {dim : ℕ} {K : Type*} [Field K] (fn : MathFns K) {s : SdfState K dim} (h : Still s) (dt : K) :
    Still (updateKin fn s dt) := by
  unfold updateKin
  dsimp only
  split_ifs
  · exact ⟨h.velocity, h.omega, h.omega3⟩
  · exact ⟨h.velocity, h.omega, h.omega3⟩

/-- Automatic differentiation gives normals shorter than one. -/
theorem autoNormal_le {dim : ℕ} (grad : ((Fin dim → ℝ) → ℝ) → (Fin dim → ℝ) → Fin dim → ℝ) (dist : (Fin dim → ℝ) → ℝ)
    (x : Fin dim → ℝ) : Spec.dot (autoNormal Real.sqrt grad dist x) (autoNormal Real.sqrt grad dist x) ≤ 1 := by
  have h0 : 0 ≤ ∑ b, grad dist x b ^ 2 := Finset.sum_nonneg fun _ _ => sq_nonneg _
  set r := Real.sqrt (∑ b, grad dist x b ^ 2) with hr
  have hr0 : 0 ≤ r := Real.sqrt_nonneg _
  have hrr : r * r = ∑ b, grad dist x b ^ 2 := Real.mul_self_sqrt h0
  have he : (0 : ℝ) < 1 / 10 ^ 12 := by positivity
  have e : Spec.dot (autoNormal Real.sqrt grad dist x) (autoNormal Real.sqrt grad dist x) =
      (r * r) / ((r + 1 / 10 ^ 12) * (r + 1 / 10 ^ 12)) := by
    rw [hrr, Finset.sum_div]
    unfold Spec.dot autoNormal
    refine Finset.sum_congr rfl fun a _ => ?_
    rw [← hr, div_mul_div_comm, sq]
  rw [e, div_le_one (by positivity)]
  nlinarith

/-- The obstacles of the package, with friction that is not negative: those given by a distance whose normal comes from automatic
differentiation, spheres, and the walls of the domain. -/
inductive Spec.LibObstacle : SdfLogic ℝ (m + 1) (SdfState ℝ (m + 1)) → Prop
  | base (grad : ((Fin (m + 1) → ℝ) → ℝ) → (Fin (m + 1) → ℝ) → Fin (m + 1) → ℝ) (dist friction : (Fin (m + 1) → ℝ) → ℝ)
      (h : ∀ x, 0 ≤ friction x) : LibObstacle (baseSdf realFns grad dist friction)
  | sphere (grad : ((Fin (m + 1) → ℝ) → ℝ) → (Fin (m + 1) → ℝ) → Fin (m + 1) → ℝ) (r : ℝ) : LibObstacle (sphereSdf realFns grad r)
  | domain (d : DomainParams ℝ (m + 1)) (h : ∀ i, 0 ≤ d.frictions i) : LibObstacle (domainSdf d)

/-- What the energy balance needs to know about an obstacle. -/
theorem libObstacle_rest {o : SdfLogic ℝ (m + 1) (SdfState ℝ (m + 1))} (ho : LibObstacle o) {s : SdfState ℝ (m + 1)} (hs : Still s)
    (dt : ℝ) : Still (o.updateKin s dt) ∧ ∀ x, o.velocity s x dt = (fun _ => 0) ∧ Spec.dot (o.normal s x) (o.normal s x) ≤ 1 ∧
      0 ≤ o.friction s x := by
  cases ho with
  | base grad dist friction h =>
    exact ⟨still_update realFns hs dt, fun x => ⟨still_velocity hs x, autoNormal_le _ _ _, h _⟩⟩
  | sphere grad r =>
    exact ⟨still_update realFns hs dt, fun x => ⟨still_velocity hs x, autoNormal_le _ _ _, zero_le_one⟩⟩
  | domain d h =>
    refine ⟨hs, fun x => ⟨still_velocity hs x, ?_, h _⟩⟩
    obtain ⟨-, -, h3⟩ := domain_walls d
    obtain ⟨upper, a, hd, hmin, hn, -⟩ := h3 x
    change Spec.dot (domainNormal d x) (domainNormal d x) ≤ 1
    have hdot : ∀ u : Fin (m + 1) → ℝ, Spec.dot u (domainNormal d x) = u a * (if upper then -1 else 1) := by
      intro u
      simp only [Spec.dot, hn, mul_ite, mul_zero, Finset.sum_ite_eq', Finset.mem_univ, if_true]
    rw [hdot, hn, if_pos rfl]
    cases upper <;> simp

/-- **C136** for the obstacles of the package. If they do not move at the start, they never do, and over any number of steps the
kinetic energy and the work absorbed by the material are paid for by gravity and the kinetic energy at the start. -/
theorem library_obstacles_energy_partial (gravs : List (List (Fin z.G) × ℕ)) (walls : List (Wall z ℝ)) (hdim : m + 1 = 2 ∨ m + 1 = 3)
    (hforces : sv.forces = gravityList gravs ++ wallList fn' walls) (hL : ∀ c, (sv.laws c).OnlyStress) (h0 : 0 ≤ sv.alpha)
    (h1 : sv.alpha ≤ 1) (hown : OwnGrids sv.couplings) (hone : (walls.flatMap Wall.gs).Nodup) {fn : MathFns ℝ} {cut : ℝ} (n : ℕ)
    (tr : ℕ → SimState z ℝ (m + 1) (SdfState ℝ (m + 1)) LS (ForceState ℝ (m + 1)))
    (h : ∀ k < n, uslCall fn sv (tr k) = .ok (tr (k + 1))) (hr : ∀ k < n, Regular cut sv (tr k).world)
    (hobs : ∀ w ∈ walls, LibObstacle (sv.sdfs w.d) ∧ 0 ≤ w.base ∧ Still ((tr 0).world.sdfs w.d)) :
    (∀ w ∈ walls, Still ((tr n).world.sdfs w.d)) ∧
    totalKE (tr n).world + ∑ k ∈ Finset.range n, activeSum sv.couplings (fun c =>
        absorbedWork (tr 0).dt ((tr k).world.bodies c.p) ((tr (k + 1)).world.bodies c.p)) ≤
      totalKE (tr 0).world + activeSum sv.couplings (fun c =>
        gravityWork (gridAccel (tr 0).mech.forces gravs c.g) ((tr 0).world.bodies c.p) ((tr n).world.bodies c.p)) := by
  have hlib : ∀ f ∈ sv.forces, LibForce f := by
    intro f hf
    rw [hforces, List.mem_append] at hf
    exact hf.elim (gravityList_lib gravs f) (wallList_lib fn' walls f)
  have hst : ∀ k ≤ n, ∀ w ∈ walls, Still ((tr k).world.sdfs w.d) := by
    intro k
    induction k with
    | zero => exact fun _ w hw => (hobs w hw).2.2
    | succ k ih =>
      intro hk w hw
      rw [(usl_sdfs hlib (h k (by omega))).1 w.d]
      exact (libObstacle_rest (hobs w hw).1 (ih (by omega) w hw) _).1
  refine ⟨hst n le_rfl, obstacle_run_energy_partial gravs walls hdim hforces hL h0 h1 hown hone n tr h hr ?_⟩
  intro k hk w hw
  obtain ⟨o1, o2, -⟩ := hobs w hw
  have hs := (libObstacle_rest o1 (hst k hk.le w hw) (tr k).dt).1
  have hx := (libObstacle_rest o1 hs (tr k).dt).2
  exact ⟨fun g _ j => (hx _).1, fun g _ j => (hx _).2.1, fun g _ j => mul_nonneg o2 (hx _).2.2⟩

end

/-! ### Concrete cases -/

theorem floor_forces : floorSolver.forces = gravityList [([(0 : Fin 1)], 0)] ++
    wallList ratFns [{ d := (0 : Fin 1), gs := [(0 : Fin 1)], gap := 0, base := 1 }] := rfl

theorem floor_own : OwnGrids floorSolver.couplings := by
  intro b hb c hc _ _ _
  simp only [floorSolver, List.mem_singleton] at hb hc
  rw [hb, hc]

theorem floor_rest : AtRest floorSolver floorState { d := (0 : Fin 1), gs := [(0 : Fin 1)], gap := 0, base := 1 } where
  still := by
    intro g _ j
    have : Still (updateKin ratFns (SdfState.create (dim := 2) fun _ => (0 : ℚ)) (1 / 100)) :=
      still_update ratFns ⟨fun _ => rfl, rfl, fun _ => rfl⟩ _
    exact still_velocity this _
  normal := by
    intro g _ j
    change Spec.dot (fun a => (![0, 1] : Fin 2 → ℚ) a / ((∑ b, (![0, 1] : Fin 2 → ℚ) b ^ 2) + 1 / 10 ^ 12))
      (fun a => (![0, 1] : Fin 2 → ℚ) a / ((∑ b, (![0, 1] : Fin 2 → ℚ) b ^ 2) + 1 / 10 ^ 12)) ≤ 1
    norm_num [Spec.dot, Fin.sum_univ_two]
  friction := by
    intro g _ j
    change (0 : ℚ) ≤ 1 * (1 / 2)
    norm_num

/-- `obstacle_step_energy_partial` for the body that sinks onto a floor with friction. -/
example : ∃ st', uslCall ratFns floorSolver floorState = .ok st' ∧
    totalKE st'.world + absorbedWork (1 / 100) (floorState.world.bodies (0 : Fin 1)) (st'.world.bodies (0 : Fin 1)) ≤
      totalKE floorState.world + gravityWork ![0, -10] (floorState.world.bodies (0 : Fin 1)) (st'.world.bodies (0 : Fin 1)) := by
  have hok : (uslCall ratFns floorSolver floorState).isOk = true := by decide +kernel
  obtain ⟨st', h⟩ := isOk_ok hok
  refine ⟨st', h, ?_⟩
  have := obstacle_step_energy_partial [([(0 : Fin 1)], 0)] _ (.inl rfl) floor_forces
    (fun _ => LibLaw.onlyStress (.elastic 1000 (1 / 4) false)) (by norm_num [floorSolver]) (by norm_num [floorSolver])
    floor_own (by simp) h floor_regular (by
      intro w hw
      obtain rfl := List.mem_singleton.mp hw
      exact floor_rest)
  have hg : gridAccel (z := floorSz) floorState.mech.forces [([(0 : Fin 1)], 0)] (0 : Fin 1) = ![0, -10] := by
    funext a
    simp [gridAccel, floorState]
  have hdt : floorState.dt = 1 / 100 := rfl
  rw [hdt] at this
  simpa [activeSum, floorSolver, hg] using this

set_option maxRecDepth 100000 in
/-- The floor takes most of the energy in this example. -/
theorem floor_values : totalKE floorState.world = 2 ∧
    checkOk (uslCall ratFns floorSolver floorState) (fun s => totalKE s.world < 14 / 10 ∧
      -1 / 5 < gravityWork ![0, -10] (floorState.world.bodies (0 : Fin 1)) (s.world.bodies (0 : Fin 1))) = true := by
  constructor <;> decide +kernel

/-! ### Two obstacles on one grid -/

/-- One body of two points, two obstacles. -/
abbrev cornerSz : Sz := { P := 1, G := 1, C := 1, S := 1, D := 2, np := fun _ => 2 }

/-- Normals of two walls that meet in an obtuse corner. -/
def cornerNormal (d : Fin 2) : Fin 2 → ℚ := if d = 0 then ![0, 1] else ![3 / 5, 4 / 5]

/-- A body in an obtuse corner of two smooth planes. -/
def cornerSolver : Solver cornerSz ℚ 2 (SdfState ℚ 2) (LawState ℚ) (ForceState ℚ 2) :=
  { alpha := 99 / 100
    domains := fun _ => GridDomain.create (fun _ => 0) (fun _ => 1) (1 / 2) 2
    couplings := [{ ker := .linear, p := (0 : Fin 1), g := (0 : Fin 1), c := (0 : Fin 1), s := (0 : Fin 1), skip := false }]
    laws := fun _ => elasticLaw 1000 (1 / 4) false
    forces := [gravityForce true [] [(0 : Fin 1)] 0, sdfColliderForce ratFns (some (0 : Fin 2)) [(0 : Fin 1)] 0 0,
      sdfColliderForce ratFns (some (1 : Fin 2)) [(0 : Fin 1)] 0 0]
    sdfs := fun d => baseSdf ratFns (fun _ _ => cornerNormal d) (planeDist (cornerNormal d)) fun _ => 0
    sharpness := 10 }

/-- The body is at rest and without stress; gravity points down and slightly into the second plane. -/
def cornerState : SimState cornerSz ℚ 2 (SdfState ℚ 2) (LawState ℚ) (ForceState ℚ 2) :=
  { world := { bodies := fun _ => .deformable (MPState.create
                { position := ![![1 / 4, 3 / 4], ![5 / 8, 7 / 8]]
                  mass := some fun _ => 1
                  volume := some fun _ => 1 / 4 })
               sdfs := fun _ => SdfState.create fun _ => 2 }
    mech := { laws := fun _ => .elastic fun _ => 0, solvers := fun _ _ => 0, forces := [.gravity ![-1, -10]] }
    time := 0
    step := 0
    dt := 1 / 100 }

theorem corner_regular : Regular uslCutoff cornerSolver cornerState.world where
  single := by simp [cornerSolver]
  box := by
    intro c hc _
    obtain rfl : c = _ := by simpa [cornerSolver] using hc
    refine ⟨fun _ => 0, fun _ => 1, 1 / 2, 2, by norm_num, by norm_num, rfl, ?_⟩
    show ∀ q : Fin 2, InBox _ _ ((cornerState.world.bodies (0 : Fin 1)).position q)
    intro q d
    fin_cases q <;> fin_cases d <;> decide +kernel
  mass_pos := by
    intro c hc _ s hs
    obtain rfl : c = _ := by simpa [cornerSolver] using hc
    have hs : cornerState.world.bodies (0 : Fin 1) = .deformable s := hs
    cases hs
    exact fun _ => by simp [MPState.create]
  cutoff := by
    intro g j
    obtain rfl : g = (0 : Fin 1) := Subsingleton.elim _ _
    exact (exRegular (cut := uslCutoff) (reset := false)
      (w := ⟨fun _ => cornerState.world.bodies (0 : Fin 1), Fin.elim0⟩) (by decide +kernel)).cutoff (0 : Fin 1) j

/-- The two planes as obstacles. -/
def cornerWalls : List (Wall cornerSz ℚ) :=
  [{ d := (0 : Fin 2), gs := [(0 : Fin 1)], gap := 0, base := 0 }, { d := (1 : Fin 2), gs := [(0 : Fin 1)], gap := 0, base := 0 }]

theorem corner_rest : ∀ w ∈ cornerWalls, AtRest cornerSolver cornerState w := by
  intro w hw
  have hst : Still (updateKin ratFns (SdfState.create (dim := 2) fun _ => (2 : ℚ)) (1 / 100)) :=
    still_update ratFns ⟨fun _ => rfl, rfl, fun _ => rfl⟩ _
  have hn : ∀ d : Fin 2, Spec.dot (fun a => cornerNormal d a / ((∑ b, cornerNormal d b ^ 2) + 1 / 10 ^ 12))
      (fun a => cornerNormal d a / ((∑ b, cornerNormal d b ^ 2) + 1 / 10 ^ 12)) ≤ 1 := by
    intro d
    fin_cases d <;> norm_num [Spec.dot, Fin.sum_univ_two, cornerNormal]
  exact ⟨fun g _ j => still_velocity hst _, fun g _ j => hn w.d, fun g _ j => by
    change (0 : ℚ) ≤ w.base * 0
    simp⟩

set_option maxRecDepth 100000 in
theorem corner_eval : (uslCall ratFns cornerSolver cornerState).isOk = true ∧ totalKE cornerState.world = 0 ∧
    checkOk (uslCall ratFns cornerSolver cornerState) (fun s => 0 < totalKE s.world ∧
      absorbedWork (1 / 100) (cornerState.world.bodies (0 : Fin 1)) (s.world.bodies (0 : Fin 1)) = 0 ∧
      gravityWork ![-1, -10] (cornerState.world.bodies (0 : Fin 1)) (s.world.bodies (0 : Fin 1)) < 0) = true := by
  refine ⟨?_, ?_, ?_⟩ <;> decide +kernel

/-- **C136** fails for two obstacles at rest on one grid. They are applied one after the other, and the second pushes the body
away from the first: from rest, the body is set in motion uphill. -/
theorem two_obstacles_give_energy : cornerSolver.forces = gravityList [([(0 : Fin 1)], 0)] ++ wallList ratFns cornerWalls ∧
    (∀ w ∈ cornerWalls, AtRest cornerSolver cornerState w) ∧ totalKE cornerState.world = 0 ∧
    ∃ st', uslCall ratFns cornerSolver cornerState = .ok st' ∧ 0 < totalKE st'.world ∧
      absorbedWork (1 / 100) (cornerState.world.bodies (0 : Fin 1)) (st'.world.bodies (0 : Fin 1)) = 0 ∧
      gravityWork ![-1, -10] (cornerState.world.bodies (0 : Fin 1)) (st'.world.bodies (0 : Fin 1)) < 0 := by
  refine ⟨rfl, corner_rest, corner_eval.2.1, ?_⟩
  obtain ⟨st', h⟩ := isOk_ok corner_eval.1
  have := checkOk_ok corner_eval.2.2 st' h
  exact ⟨st', h, by simpa using this⟩

/-- `obstacles_slow_down` for the same corner without gravity, when the body runs into it. -/
example : ∃ st', uslCall ratFns { cornerSolver with forces := wallList ratFns cornerWalls } { cornerState with
      world := { cornerState.world with bodies := fun _ => floorState.world.bodies (0 : Fin 1) } } = .ok st' ∧
    totalKE st'.world ≤ totalKE floorState.world := by
  set st : SimState cornerSz ℚ 2 (SdfState ℚ 2) (LawState ℚ) (ForceState ℚ 2) := { cornerState with
      world := { cornerState.world with bodies := fun _ => floorState.world.bodies (0 : Fin 1) } } with hst
  set sv : Solver cornerSz ℚ 2 (SdfState ℚ 2) (LawState ℚ) (ForceState ℚ 2) :=
    { cornerSolver with forces := wallList ratFns cornerWalls } with hsv
  have hok : (uslCall ratFns sv st).isOk = true := by decide +kernel
  obtain ⟨st', h⟩ := isOk_ok hok
  refine ⟨st', h, ?_⟩
  have hr : Regular uslCutoff sv st.world :=
    { single := corner_regular.single
      box := corner_regular.box
      mass_pos := by
        intro c hc _ s hs
        have hs : floorState.world.bodies (0 : Fin 1) = .deformable s := hs
        cases hs
        exact fun _ => by simp [MPState.create]
      cutoff := by
        intro g j
        obtain rfl : g = (0 : Fin 1) := Subsingleton.elim _ _
        exact floor_regular.cutoff (0 : Fin 1) j }
  have := obstacles_slow_down cornerWalls (.inl rfl) (sv := sv) rfl (fun _ => LibLaw.onlyStress (.elastic 1000 (1 / 4) false))
    (by norm_num [hsv, cornerSolver]) (by norm_num [hsv, cornerSolver]) h hr (by
      intro c _ _ s hs q
      cases hs
      rfl) (by
      intro w hw
      obtain ⟨a, b, c⟩ := corner_rest w hw
      exact ⟨a, b, c⟩)
  exact this

end Hydrax
