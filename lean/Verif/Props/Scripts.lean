import Verif.Model.Scripts
import Verif.Model.CamClay
import Verif.Props.Derived
import Verif.Props.Sdf
import Verif.Props.FloatGrid
import Mathlib.Logic.Function.Iterate
import Mathlib.Analysis.Real.Pi.Bounds

/-!
# The scripts in `projects/` (C108-C112)
-/

namespace Hydrax

/-! ### C109: how many steps, and when the state is recorded -/

/-- **C109**: if the two doubles have a whole ratio, that is the number of steps. -/
theorem step_count_exact (N : ℕ) (hN : N ≤ 2 ^ 53) (t h : ℚ) (hh : h ≠ 0) (e : t = N * h) : stepCount rnd64 t h = N := by
  have h1 : t / h = ((N : ℤ) : ℚ) * 2 ^ (0 : ℤ) := by rw [e]; push_cast; field_simp
  unfold stepCount
  rw [h1, rnd64_exact (N : ℤ) 0 (by rw [Nat.abs_cast]; exact_mod_cast hN)]
  unfold pyInt
  rw [if_pos (by positivity)]
  simp

/-- **C109**: if the two decimal numbers have a whole ratio `N`, the number of steps is `N` or one less. -/
theorem step_count_within_one_partial (N : ℕ) (hN0 : 0 < N) (hN : N ≤ 2 ^ 50) (t h : ℚ) (hh : 0 < h) (e : t = N * h) :
    stepCount rnd64 (rnd64 t) (rnd64 h) = N ∨ stepCount rnd64 (rnd64 t) (rnd64 h) = N - 1 := by
  have hN' : (N : ℚ) ≤ 2 ^ 50 := by exact_mod_cast hN
  have hN1 : (1 : ℚ) ≤ N := by exact_mod_cast hN0
  have ht : 0 < t := by rw [e]; positivity
  have a := abs_le.mp (rnd64_err t)
  have b := abs_le.mp (rnd64_err h)
  rw [abs_of_pos ht] at a
  rw [abs_of_pos hh] at b
  have hr : 0 < rnd64 h := by linarith [b.1]
  have q1 : (N : ℚ) - 1 / 2 ≤ rnd64 t / rnd64 h := by
    rw [le_div_iff₀ hr]
    nlinarith [a.1, b.2]
  have q2 : rnd64 t / rnd64 h ≤ N + 1 / 2 := by
    rw [div_le_iff₀ hr]
    nlinarith [a.2, b.1]
  unfold stepCount pyInt
  set q := rnd64 t / rnd64 h
  have hq : 0 < q := by linarith
  have c := abs_le.mp (rnd64_err q)
  rw [abs_of_pos hq] at c
  have r1 : (N : ℚ) - 1 ≤ rnd64 q := by linarith [c.1]
  have r2 : rnd64 q < N + 1 := by linarith [c.2]
  rw [if_pos (by linarith)]
  have f1 : (N : ℤ) - 1 ≤ ⌊rnd64 q⌋ := Int.le_floor.mpr (by push_cast; exact r1)
  have f2 : ⌊rnd64 q⌋ < (N : ℤ) + 1 := Int.floor_lt.mpr (by push_cast; exact r2)
  omega

/-- The double nearest to 1e-5. -/
def hundredThousandth : ℚ := 5902958103587057 * 2 ^ (-69 : ℤ)

theorem rnd_hundredThousandth : rnd64 (1 / 10 ^ 5) = hundredThousandth := by
  have := rnd64_cert (1 / 10 ^ 5) 5902958103587057 (-69) (by norm_num) (by norm_num) (by decide +kernel)
  unfold hundredThousandth; exact_mod_cast this

/-- Why C109 is partial: with the numbers written in `collapse.py`, two seconds in steps of 1e-5, the last step is lost. -/
theorem step_count_loses_step : stepCount rnd64 (rnd64 2) (rnd64 (1 / 10 ^ 5)) = 199999 := by
  have e2 : rnd64 2 = 2 := by
    have := rnd64_exact 2 0 (by norm_num)
    simpa using this
  have e3 : rnd64 (2 / hundredThousandth) = 6871947673599999 * 2 ^ (-35 : ℤ) := by
    have := rnd64_cert (2 / hundredThousandth) 6871947673599999 (-35) (by norm_num [hundredThousandth])
      (by norm_num [hundredThousandth]) (by decide +kernel)
    exact_mod_cast this
  rw [e2, rnd_hundredThousandth, stepCount, e3]
  decide +kernel

/-- The three seconds of `collapse_setup.py` are kept. -/
example : stepCount rnd64 (rnd64 3) (rnd64 (1 / 10 ^ 5)) = 300000 ∨ stepCount rnd64 (rnd64 3) (rnd64 (1 / 10 ^ 5)) = 300000 - 1 :=
  step_count_within_one_partial 300000 (by norm_num) (by norm_num) 3 (1 / 10 ^ 5) (by norm_num) (by norm_num)

example : stepCount rnd64 3 (1 / 2 ^ 10) = 3072 := step_count_exact 3072 (by norm_num) 3 (1 / 2 ^ 10) (by norm_num) (by norm_num)

section
variable {S : Type*}

/-- The state after `k` steps of the solver. -/
def Spec.after (solver : S → S) (k : ℕ) (st : S) : S := solver^[k] st

theorem iterLoop_eq (solver : S → S) (n : ℕ) (st : S) : iterLoop solver n st = solver^[n] st := by
  unfold iterLoop
  induction n generalizing st with
  | zero => rfl
  | succ n ih => rw [List.range_succ, List.foldl_append, ih, Function.iterate_succ_apply']; rfl

theorem loopLog_eq (solver : S → S) (output steps : ℕ) (st : S) :
    loopLog solver output steps st =
      (solver^[steps] st, ((List.range steps).filter fun i => i % output = 0).map fun i => solver^[i + 1] st) := by
  unfold loopLog
  induction steps with
  | zero => rfl
  | succ n ih =>
    rw [List.range_succ, List.foldl_append, ih]
    simp only [List.foldl_cons, List.foldl_nil, List.filter_append, List.map_append]
    rw [← Function.iterate_succ_apply' solver n st]
    by_cases h : n % output = 0 <;> simp [h]

/-- **C109**: the plain loop makes the requested number of steps, and hands the state to the call-back exactly after the steps
`1, output + 1, 2 output + 1, …`, in that order. -/
theorem loop_records (solver : S → S) (output steps : ℕ) (st : S) :
    (loopLog solver output steps st).1 = Spec.after solver steps st ∧
    (loopLog solver output steps st).2 =
      ((List.range steps).filter fun i => i % output = 0).map fun i => Spec.after solver (i + 1) st := by
  rw [loopLog_eq]; exact ⟨rfl, rfl⟩

theorem filter_mod_range (output n : ℕ) (ho : 0 < output) :
    (List.range (n * output)).filter (fun i => i % output = 0) = (List.range n).map (· * output) := by
  induction n with
  | zero => simp
  | succ n ih =>
    rw [Nat.succ_mul, List.range_add, List.filter_append, ih, List.range_succ, List.map_append]
    congr 1
    obtain ⟨k, rfl⟩ : ∃ k, output = k + 1 := ⟨output - 1, by omega⟩
    rw [List.range_succ_eq_map, List.map_cons, List.filter_cons]
    rw [if_pos (by simp)]
    simp only [List.map_map, List.map_cons, List.map_nil, Nat.add_zero]
    congr 1
    rw [List.filter_eq_nil_iff]
    intro a ha
    obtain ⟨i, hi, rfl⟩ := List.mem_map.mp ha
    have hi' := List.mem_range.mp hi
    simp only [Function.comp_apply, decide_eq_true_eq]
    rw [Nat.mul_comm, Nat.mul_add_mod, Nat.mod_eq_of_lt (by omega)]
    omega

/-- **C109**: for `n` whole intervals there are `n` records, the `k`-th one step after the `k`-th interval began: recorded
states are one interval apart. -/
theorem loop_interval_partial (solver : S → S) (output n : ℕ) (ho : 0 < output) (st : S) :
    (loopLog solver output (n * output) st).2 = (List.range n).map fun k => Spec.after solver (k * output + 1) st := by
  rw [(loop_records solver output _ st).2, filter_mod_range output n ho, List.map_map]; rfl

/-- Why C109 is partial: the plain loop does not record the final state (unless every step is recorded): the last record lies an
interval less one step before it. -/
theorem loop_misses_end (output n : ℕ) (ho : 1 < output) :
    (loopLog Nat.succ output (n * output) 0).1 = n * output ∧
    ∀ s ∈ (loopLog Nat.succ output (n * output) 0).2, s + (output - 1) ≤ n * output ∧ s ≠ n * output := by
  have it : ∀ k, Spec.after Nat.succ k 0 = k := by
    intro k
    unfold Spec.after
    induction k with
    | zero => rfl
    | succ k ih => rw [Function.iterate_succ_apply', ih]
  refine ⟨by rw [(loop_records Nat.succ output _ 0).1, it], ?_⟩
  intro s hs
  rw [loop_interval_partial Nat.succ output n (by omega) 0] at hs
  obtain ⟨k, hk, rfl⟩ := List.mem_map.mp hs
  have hk' := List.mem_range.mp hk
  rw [it]
  have h1 : (k + 1) * output ≤ n * output := Nat.mul_le_mul_right _ hk'
  rw [Nat.add_mul, Nat.one_mul] at h1
  omega

/-- **C109**: the trajectory holds the states after `output`, `2 output`, … steps, `n` of them. -/
theorem traj_records (solver : S → S) (output n : ℕ) (st : S) :
    scanTraj solver output n st = (List.range n).map fun k => Spec.after solver ((k + 1) * output) st := by
  have key : ∀ n, (List.range n).foldl (fun (v : S × List S) _ =>
      let next := iterLoop solver output v.1
      (next, v.2 ++ [next])) (st, []) =
      (solver^[n * output] st, (List.range n).map fun k => solver^[(k + 1) * output] st) := by
    intro n
    induction n with
    | zero => simp
    | succ n ih =>
      rw [List.range_succ, List.foldl_append, ih]
      simp only [List.foldl_cons, List.foldl_nil, List.map_append, List.map_cons, List.map_nil, iterLoop_eq]
      rw [← Function.iterate_add_apply, Nat.succ_mul, Nat.add_comm output]
  unfold scanTraj
  rw [key]; rfl

/-- **C109**: the last state of the trajectory is the final state of the plain loop if the interval divides the number of steps. -/
theorem traj_last_partial (solver : S → S) (output steps : ℕ) (ho : 0 < output) (hs : 0 < steps) (hd : output ∣ steps) (st : S) :
    (scanTraj solver output (steps / output) st).getLast? = some (loopLog solver output steps st).1 := by
  obtain ⟨n, rfl⟩ := hd
  rw [Nat.mul_div_cancel_left _ ho, traj_records, (loop_records _ _ _ _).1]
  obtain ⟨k, rfl⟩ : ∃ k, n = k + 1 := ⟨n - 1, by
    have : n ≠ 0 := by rintro rfl; simp at hs
    omega⟩
  rw [List.range_succ, List.map_append]
  simp [Nat.mul_comm]

/-- Why C109 is partial: otherwise the steps left over are not made; here two of five. -/
theorem traj_drops_steps : scanTraj Nat.succ 3 (5 / 3) 0 = [3] ∧ (loopLog Nat.succ 3 5 0).1 = 5 := by decide

/-- **C109**: with a solver that advances a clock by `dt`, the times of the trajectory. -/
theorem traj_times (solver : S → S) (clock : S → ℚ) (dt : ℚ) (hc : ∀ s, clock (solver s) = clock s + dt) (output n : ℕ) (st : S) :
    (scanTraj solver output n st).map clock = (List.range n).map fun k => clock st + ((k + 1) * output : ℕ) * dt := by
  rw [traj_records, List.map_map]
  refine List.map_congr_left fun k _ => ?_
  have it : ∀ j, clock (Spec.after solver j st) = clock st + j * dt := by
    intro j
    unfold Spec.after
    induction j with
    | zero => simp
    | succ j ih => rw [Function.iterate_succ_apply', hc, ih]; push_cast; ring
  exact it _

end

example : (scanTraj (fun q : ℚ => q + 1 / 10) 5 3 0).map id = [5 / 10, 10 / 10, 15 / 10] := by
  rw [traj_times (fun q : ℚ => q + 1 / 10) id (1 / 10) (fun s => rfl)]
  norm_num [List.range_succ]

example : (loopLog Nat.succ 5 (3 * 5) 0).2 = [1, 6, 11] := by
  rw [loop_interval_partial Nat.succ 5 3 (by norm_num)]; decide

/-! ### C110: the parameters are used -/

section
variable {K : Type*} [Field K] [LinearOrder K] {n m : ℕ} {R : Type*}

/-- **C110**: a trajectory is the simulation of the given state with the floor and the gravity of the parameters, and nothing
else changed. -/
theorem traj_uses_params (fn : MathFns K) (pi : K) (solver : CollapseState K n m R → CollapseState K n m R) (output steps : ℕ)
    (ho : 0 < output) (st : CollapseState K n m R) (c : CollapseParams K n m) :
    ∃ st0 : CollapseState K n m R, st0.floor.bumps = c.bumps ∧ st0.floor.frictions = some c.frictions ∧
      st0.gravity = c.gravity fn pi ∧ st0.rest = st.rest ∧
      collapseTraj fn pi solver output steps st (some c) =
        .ok ((List.range (steps / output)).map fun k => Spec.after solver ((k + 1) * output) st0) := by
  refine ⟨{ st with floor := { bumps := c.bumps, frictions := some c.frictions }, gravity := c.gravity fn pi }, rfl, rfl, rfl, rfl, ?_⟩
  unfold collapseTraj
  simp only
  rw [if_neg (by omega), traj_records]

/-- **C110**: the plain run uses the floor of the parameters. -/
theorem run_uses_params_partial (solver : CollapseState K n m R → CollapseState K n m R) (output steps : ℕ)
    (st : CollapseState K n m R) (c : CollapseParams K n m) :
    ∃ st0 : CollapseState K n m R, st0.floor.bumps = c.bumps ∧ st0.floor.frictions = some c.frictions ∧ st0.rest = st.rest ∧
      ∃ r, collapseRun solver output steps st (some c) = .ok r ∧ r.1 = Spec.after solver steps st0 := by
  refine ⟨{ st with floor := { bumps := c.bumps, frictions := some c.frictions } }, rfl, rfl, rfl, _, rfl, ?_⟩
  rw [(loop_records _ _ _ _).1]

/-- Why C110 is partial: the plain run ignores the tilt; two parameter sets that differ only in it give the same result. -/
theorem run_ignores_tilt (solver : CollapseState K n m R → CollapseState K n m R) (output steps : ℕ)
    (st : CollapseState K n m R) (c c' : CollapseParams K n m) (h1 : c.bumps = c'.bumps) (h2 : c.frictions = c'.frictions) :
    collapseRun solver output steps st (some c) = collapseRun solver output steps st (some c') := by
  unfold collapseRun
  simp only [h1, h2]

/-- Why C110 is partial: although the parameters are optional, leaving them out fails. -/
theorem collapse_needs_params (fn : MathFns K) (pi : K) (solver : CollapseState K n m R → CollapseState K n m R) (output steps : ℕ)
    (ho : 0 < output) (hs : 0 < steps) (st : CollapseState K n m R) :
    collapseRun solver output steps st none = .error .runtimeError ∧
    collapseTraj fn pi solver output steps st none = .error .attributeError := by
  constructor
  · unfold collapseRun; simp only; rw [if_neg (by omega)]
  · unfold collapseTraj; simp only; rw [if_neg (by omega)]

end

/-- **C110**: gravity keeps its magnitude; it has the component `g sin` down a slope that falls in the direction of `x`, and
`g cos` into it. -/
theorem tilt_gravity {n m : ℕ} (c : CollapseParams ℝ n m) :
    let θ := c.tiltAngle * Real.pi / 180
    let g := c.gravity realFns Real.pi
    g 0 ^ 2 + g 1 ^ 2 = (981 / 100) ^ 2 ∧ g 0 = 981 / 100 * Real.sin θ ∧ g 1 = -(981 / 100 * Real.cos θ) := by
  intro θ g
  have hθ : c.tiltAngle * (Real.pi / 180) = θ := by simp only [θ]; ring
  have h0 : g 0 = 981 / 100 * Real.sin θ := by
    simp only [g, CollapseParams.gravity, rot2, hθ, realFns_sin, realFns_cos, Matrix.cons_val_zero, Matrix.cons_val_one]; ring
  have h1 : g 1 = -(981 / 100 * Real.cos θ) := by
    simp only [g, CollapseParams.gravity, rot2, hθ, realFns_sin, realFns_cos, Matrix.cons_val_zero, Matrix.cons_val_one]; ring
  refine ⟨?_, h0, h1⟩
  rw [h0, h1]
  nlinarith [Real.sin_sq_add_cos_sq θ]

/-- Parameters with a level and with an upright floor. -/
noncomputable def exTilt (angle : ℝ) : CollapseParams ℝ 1 1 :=
  { bumps := { amplitudes := 0, wavenumbers := 1, phases := 0, scaleBase := 0 }
    frictions := { amplitudes := 0, wavenumbers := 1, phases := 0, scaleBase := 1 / 2 }
    tiltAngle := angle, simId := 0 }

example : (exTilt 0).gravity realFns Real.pi ≠ (exTilt 90).gravity realFns Real.pi ∧
    ∀ (solver : CollapseState ℝ 1 1 ℕ → CollapseState ℝ 1 1 ℕ) (output steps : ℕ) (st : CollapseState ℝ 1 1 ℕ),
      collapseRun solver output steps st (some (exTilt 0)) = collapseRun solver output steps st (some (exTilt 90)) := by
  refine ⟨fun h => ?_, fun solver output steps st => run_ignores_tilt solver output steps st _ _ rfl rfl⟩
  have h0 := (tilt_gravity (exTilt 0)).2.1
  have h1 := (tilt_gravity (exTilt 90)).2.1
  rw [← h, h0] at h1
  have e : (90 : ℝ) * Real.pi / 180 = Real.pi / 2 := by ring
  simp only [exTilt, zero_mul, zero_div, Real.sin_zero, e, Real.sin_pi_div_two] at h1
  norm_num at h1

/-! ### C108: the column -/

section
variable {K : Type*} [Field K] [LinearOrder K] [IsStrictOrderedRing K]

/-- **C108**: the points are the middles of the squares that tile a box of the requested size, lifted and shifted by one and a half
spacings. -/
theorem column_layout (sep : K) (nx ny : ℕ) (i : Fin nx) (j : Fin ny) :
    columnPos sep nx (j.val * nx + i.val) = ![(i.val + 1 / 2) * sep + 3 / 2 * sep, (j.val + 1 / 2) * sep + 3 / 2 * sep] := by
  have h1 : (j.val * nx + i.val) % nx = i.val := by
    rw [Nat.mul_comm, Nat.mul_add_mod, Nat.mod_eq_of_lt i.2]
  have h2 : (j.val * nx + i.val) / nx = j.val := by
    have : 0 < nx := i.pos
    rw [Nat.mul_comm, Nat.mul_add_div this, Nat.div_eq_of_lt i.2, Nat.add_zero]
  unfold columnPos
  rw [h1, h2]
  congr 1
  · ring
  · congr 1; ring

/-- **C108**: the points built stand at the centres of the `nx × ny` squares of side `cell_size / ppc` that tile the box with
lower corner at one and a half sides. -/
theorem column_tiles (cellSize ppc rho : K) (nx ny : ℕ) (stress : Option (Fin (nx * ny) → Mat3 K)) (i : Fin nx) (j : Fin ny)
    (r : Fin (nx * ny)) (hr : r.val = j.val * nx + i.val) :
    (columnPoints cellSize ppc rho nx ny stress).position r =
      ![(i.val + 1 / 2) * (cellSize / ppc) + 3 / 2 * (cellSize / ppc), (j.val + 1 / 2) * (cellSize / ppc) + 3 / 2 * (cellSize / ppc)] := by
  change columnPos (cellSize / ppc) nx r.val = _
  rw [hr]
  exact column_layout (cellSize / ppc) nx ny i j

/-- Point 5 of a column of three points per row. -/
example : (columnPoints (1 : ℚ) 2 2650 3 2 none).position ⟨5, by norm_num⟩ =
    ![(2 + 1 / 2) * (1 / 2) + 3 / 2 * (1 / 2), (1 + 1 / 2) * (1 / 2) + 3 / 2 * (1 / 2)] :=
  column_tiles 1 2 2650 3 2 none 2 1 ⟨5, by norm_num⟩ rfl

/-- What the column weighs: density times the area of the box times the number `ppc`. -/
theorem column_mass (cellSize ppc rho : K) (nx ny : ℕ) (stress : Option (Fin (nx * ny) → Mat3 K)) (hp : ppc ≠ 0) :
    ∑ r, (columnPoints cellSize ppc rho nx ny stress).mass r = ppc * (rho * (nx * (cellSize / ppc)) * (ny * (cellSize / ppc))) := by
  have e : ∀ r, (columnPoints cellSize ppc rho nx ny stress).mass r = 1 * (cellSize ^ 2 / ppc) * rho := fun r => rfl
  simp only [e, Finset.sum_const, Finset.card_univ, Fintype.card_fin, nsmul_eq_mul]
  push_cast
  field_simp

/-- **C108** for one point per cell. -/
theorem column_mass_partial (cellSize rho : K) (nx ny : ℕ) (stress : Option (Fin (nx * ny) → Mat3 K)) :
    ∑ r, (columnPoints cellSize 1 rho nx ny stress).mass r = rho * (nx * cellSize) * (ny * cellSize) := by
  rw [column_mass _ _ _ _ _ _ one_ne_zero, one_mul, div_one]

/-- Why C108 is partial: with the setting of the scripts, `ppc = 2`, there are four points per cell but each is given half a cell:
the column is twice as heavy as its density says. -/
theorem column_mass_doubled (cellSize rho : K) (nx ny : ℕ) (stress : Option (Fin (nx * ny) → Mat3 K))
    (hc : 0 < cellSize) (hr : 0 < rho) (hx : 0 < nx) (hy : 0 < ny) :
    let area := (nx * (cellSize / 2)) * (ny * (cellSize / 2))
    ∑ r, (columnPoints cellSize 2 rho nx ny stress).mass r = 2 * (rho * area) ∧ 0 < rho * area := by
  intro area
  have h1 : (0 : K) < nx := by exact_mod_cast hx
  have h2 : (0 : K) < ny := by exact_mod_cast hy
  refine ⟨?_, by simp only [area]; positivity⟩
  rw [column_mass _ _ _ _ _ _ two_ne_zero]; simp only [area]; ring

/-- **C108**: the two discs: each point stands for the square of its spacing exactly if four points per cell are asked for, as in
the script. -/
theorem circle_volume (cellSize ppc : K) (hc : 0 < cellSize) (hp : 0 < ppc) :
    circleSpacing cellSize ppc ^ 2 = cellSize ^ 2 / ppc ↔ ppc = 4 := by
  unfold circleSpacing
  constructor
  · intro h
    field_simp at h
    linarith
  · rintro rfl; ring

/-- **C108**: points of a disc lie within its radius, up to the tolerance of the mask. -/
theorem circle_inside (center : Fin 2 → K) (radius eps : K) (x : Fin 2 → K) (h : circleMask center radius x)
    (hre : 5 / 10 ^ 5 ≤ 2 * radius * eps) :
    (x 0 - center 0) ^ 2 + (x 1 - center 1) ^ 2 < (radius + eps) ^ 2 := by
  unfold circleMask at h
  nlinarith [sq_nonneg eps]

end

/-- Why C108 is partial: the lithostatic stress is put into the third axis; in the plane of the simulation the stress along gravity
is the horizontal one, half of what carries the weight above. -/
theorem column_stress_wrong_axis (rho height y : ℝ) (hr : 0 < rho) (hd : 5 / 100 ≤ height - y) :
    let s := columnStress realFns Real.pi rho height 0 y
    let weight := rho * (981 / 100) * (height - y)
    s 1 1 = weight / 2 ∧ s 2 2 = weight ∧ s 1 1 < weight := by
  intro s weight
  have hw : 0 < weight := by
    have : 0 < height - y := by linarith
    simp only [weight]; positivity
  have e : s = Spec.slopeStress weight (1 / 2) 0 := by
    have := lithostatic_stress_partial (rho := rho) (depth := height - y) (g := 981 / 100) (k0 := 1 / 2) hw.le (by norm_num)
    simp only [s, columnStress, zero_mul, max_eq_left hd]
    exact this
  have h1 : s 1 1 = weight / 2 := by rw [e]; simp [Spec.slopeStress]; ring
  refine ⟨h1, by rw [e]; simp [Spec.slopeStress], by rw [h1]; linarith⟩

example : ∑ r, (columnPoints (5 / 1000 : ℚ) 2 2650 80 80 none).mass r = 2 * (2650 * (80 * (5 / 1000 / 2)) * (80 * (5 / 1000 / 2))) := by
  rw [column_mass _ _ _ _ _ _ two_ne_zero]; norm_num

example : columnStress realFns Real.pi 2650 (2 / 10) 0 (1 / 10) 1 1 = 2650 * (981 / 100) * (2 / 10 - 1 / 10) / 2 :=
  (column_stress_wrong_axis 2650 (2 / 10) (1 / 10) (by norm_num) (by norm_num)).1

example : columnPos (1 / 2 : ℚ) 3 (1 * 3 + 2) = ![2, 3 / 2] := by
  have := column_layout (1 / 2 : ℚ) 3 2 2 1
  refine this.trans ?_
  norm_num

/-! ### C111: calibration -/

section
variable {K : Type*} [Field K] [LinearOrder K] [IsStrictOrderedRing K]

variable {O : Type*} {N d : ℕ} (loss : (Fin d → K) → K) (upd : (Fin N → Fin d → K) → O → (Fin N → Fin d → K) × O) (lo hi : Fin d → K)

/-- **C111**: whatever the optimiser proposes, every chain stays within the bounds. -/
theorem calib_bounds (hb : ∀ k, lo k ≤ hi k) (s : CalibState K O N d) (hs : ∀ c k, s.pop c k ∈ Set.Icc (lo k) (hi k)) (n : ℕ) :
    ∀ c k, (calibRun loss upd lo hi n s).pop c k ∈ Set.Icc (lo k) (hi k) := by
  intro c k
  cases n with
  | zero => exact hs c k
  | succ n => exact ⟨le_min (le_max_right _ _) (hb k), min_le_right _ _⟩

/-- **C111**: the loss reported after an iteration is the least loss of the population before it. -/
theorem calib_report_partial {N : ℕ} (upd : (Fin (N + 1) → Fin d → K) → O → (Fin (N + 1) → Fin d → K) × O)
    (n : ℕ) (s : CalibState K O (N + 1) d) :
    ∃ c, (calibReport (calibRun loss upd lo hi (n + 1) s)).2 = loss ((calibRun loss upd lo hi n s).pop c) ∧
      (∀ c', (calibReport (calibRun loss upd lo hi (n + 1) s)).2 ≤ loss ((calibRun loss upd lo hi n s).pop c')) ∧
      (calibReport (calibRun loss upd lo hi (n + 1) s)).1 = (calibRun loss upd lo hi (n + 1) s).pop c :=
  ⟨_, rfl, fun c' => argmin_le _ (calibRun loss upd lo hi (n + 1) s).losses c', rfl⟩

end

/-- Squared distance from 1. -/
def exLoss (x : Fin 1 → ℚ) : ℚ := (x 0 - 1) ^ 2

/-- The first step of Adam with rate 0.02: every parameter moves by the rate against the sign of its derivative. -/
def exAdam (pop : Fin 2 → Fin 1 → ℚ) (o : Unit) : (Fin 2 → Fin 1 → ℚ) × Unit := (fun c k => -(2 / 100) * sgn (pop c k - 1), o)

/-- Two chains, at 1.005 and at 0.99. -/
def exChains : CalibState ℚ Unit 2 1 := { pop := fun c _ => if c = 0 then 1005 / 1000 else 99 / 100, opt := (), losses := fun _ => 0 }

/-- Why C111 is partial: parameters are taken after, losses before the update. The reported parameters do not have the reported
loss, and another chain is better. -/
theorem calib_report_fails :
    let s := calibRun exLoss exAdam (fun _ => 1 / 2) (fun _ => 2) 1 exChains
    (calibReport s).2 < exLoss (calibReport s).1 ∧ ∃ c, exLoss (s.pop c) < exLoss (calibReport s).1 := by
  intro s
  refine ⟨by decide +kernel, 1, by decide +kernel⟩

/-- **C111**: within the bounds of the script the material is one of Cam-Clay: `0 < kap < lam`, positive `M`, `nu` below one half. -/
theorem calib_material (x : Fin 5 → ℝ) (h : ∀ k, x k ∈ Set.Icc (calibLo k) (calibHi k)) :
    0 < calibKap x ∧ calibKap x < x 1 ∧ 0 < x 0 ∧ 0 < x 4 ∧ x 4 < 1 / 2 := by
  have h0 := h 0; have h1 := h 1; have h2 := h 2; have h4 := h 4
  simp only [calibLo, calibHi, Set.mem_Icc, Matrix.cons_val_zero, Matrix.cons_val_one, Matrix.cons_val] at h0 h1 h2 h4
  unfold calibKap
  refine ⟨by nlinarith, by nlinarith, by linarith, by linarith, by linarith⟩

/-- Why C111 is partial: the bounds admit materials whose specific volume is below one, more solid than space, at every pressure of
the tests. -/
theorem calib_volume_below_one : ∃ x : Fin 5 → ℝ, (∀ k, x k ∈ Set.Icc (calibLo k) (calibHi k)) ∧
    ∀ p, 1000 ≤ p → vNcl realFns p 1000 (x 3) (x 1) < 1 := by
  refine ⟨calibLo, fun k => ⟨le_rfl, ?_⟩, fun p hp => ?_⟩
  · fin_cases k <;> norm_num [calibLo, calibHi]
  · have e : vNcl realFns p 1000 (calibLo (3 : Fin 5)) (calibLo 1) = 4 / 10 * (1000 / p) ^ (1 / 100 : ℝ) := by
      simp [vNcl, calibLo]
    rw [e]
    have : (1000 / p) ^ (1 / 100 : ℝ) ≤ 1 :=
      Real.rpow_le_one (by positivity) ((div_le_one (by linarith)).mpr hp) (by norm_num)
    linarith

example : ∀ c k, (calibRun exLoss exAdam (fun _ => 1 / 2) (fun _ => 2) 7 exChains).pop c k ∈ Set.Icc (1 / 2 : ℚ) 2 := by
  refine calib_bounds exLoss exAdam (fun _ => 1 / 2) (fun _ => 2) (fun _ => by norm_num) exChains ?_ 7
  intro c k
  simp only [exChains]
  split_ifs <;> norm_num

/-! ### C112: saved trajectories -/

/-- Powers of two around a number in the normal range of half precision. -/
theorem log_bounds {q : ℚ} (hq : q ≠ 0) : (2 : ℚ) ^ (Int.log 2 |q|) ≤ |q| := by
  have := Int.zpow_log_le_self (b := 2) (by norm_num) (abs_pos.mpr hq)
  exact_mod_cast this

/-- **C112**: numbers between `2^-14` and `65520` are saved to within one part in 2048, smaller ones to within `2^-25`. -/
theorem saved_close_partial (q : ℚ) (h : |q| < 65520) :
    ∃ r, savedOther q = some r ∧ (1 / 2 ^ 14 ≤ |q| → |r - q| ≤ |q| / 2 ^ 11) ∧ (|q| < 1 / 2 ^ 14 → |r - q| ≤ 1 / 2 ^ 25) := by
  unfold savedOther rnd16
  by_cases hs : |q| < 1 / 2 ^ 14
  · rw [if_pos hs]
    refine ⟨_, rfl, fun h' => absurd hs (not_lt.mpr h'), fun _ => ?_⟩
    have h1 := nearestEven_err (q * 2 ^ 24)
    have e : (nearestEven (q * 2 ^ 24) : ℚ) / 2 ^ 24 - q = (nearestEven (q * 2 ^ 24) - q * 2 ^ 24) / 2 ^ 24 := by ring
    rw [e, abs_div, abs_of_pos (by positivity : (0 : ℚ) < 2 ^ 24), div_le_iff₀ (by positivity)]
    linarith
  · rw [if_neg hs, if_neg (not_le.mpr h)]
    refine ⟨_, rfl, fun _ => ?_, fun h' => absurd h' hs⟩
    have hq : q ≠ 0 := by
      rintro rfl
      simp at hs
    set u : ℚ := 2 ^ (Int.log 2 |q| - 10) with hu
    have hu0 : 0 < u := by positivity
    have h1 := nearestEven_err (q / u)
    have e : (nearestEven (q / u) : ℚ) * u - q = (nearestEven (q / u) - q / u) * u := by field_simp
    have h2 : u * 2 ^ 10 ≤ |q| := by
      have := log_bounds hq
      rw [hu, zpow_sub₀ (by norm_num)]
      calc (2 : ℚ) ^ Int.log 2 |q| / 2 ^ (10 : ℤ) * 2 ^ 10 = 2 ^ Int.log 2 |q| := by
            rw [show ((2 : ℚ) ^ (10 : ℤ)) = 2 ^ 10 from by norm_cast]; field_simp
        _ ≤ |q| := this
    rw [e, abs_mul, abs_of_pos hu0, le_div_iff₀ (by positivity)]
    nlinarith

/-- Why C112 is partial: stresses come back in kPa, everything else as it was. -/
theorem saved_stress_kPa (q : ℚ) (h0 : 1 ≤ |q|) (h : |q| < 65520) :
    ∃ r r', savedStress q = some r ∧ savedOther q = some r' ∧ |r| < |r'| / 100 := by
  obtain ⟨r', h1, h2, -⟩ := saved_close_partial q h
  have hq3 : |q / 1000| = |q| / 1000 := by rw [abs_div]; norm_num
  obtain ⟨r, h3, h4, -⟩ := saved_close_partial (q / 1000) (by rw [hq3]; linarith [abs_nonneg q])
  refine ⟨r, r', h3, h1, ?_⟩
  have a := h2 (le_trans (by norm_num) h0)
  have b := h4 (by rw [hq3, le_div_iff₀ (by norm_num)]; linarith)
  rw [hq3] at b
  have c1 : |r'| ≥ |q| - |r' - q| := by
    have := abs_sub_abs_le_abs_sub q r'
    rw [abs_sub_comm q r'] at this; linarith
  have c2 : |r| ≤ |q| / 1000 + |r - q / 1000| := by
    have := abs_sub_abs_le_abs_sub r (q / 1000)
    rw [hq3] at this; linarith
  have hq0 : 0 < |q| := by linarith
  linarith

/-- Why C112 is partial: volumes of points in cells of a tenth of a millimetre are saved as zero, stresses from 65.52 MPa as
infinity. -/
theorem saved_lost : savedOther ((1 / 10 ^ 4) ^ 2 / 2) = some 0 ∧ savedStress 65520000 = none := by
  constructor
  · unfold savedOther rnd16
    rw [abs_of_pos (by norm_num), if_pos (by norm_num)]
    have : nearestEven ((1 / 10 ^ 4) ^ 2 / 2 * 2 ^ 24) = 0 := by decide +kernel
    rw [this]; norm_num
  · unfold savedStress rnd16
    rw [abs_of_pos (by norm_num), if_neg (by norm_num), if_pos (by norm_num)]

example : ∃ r, savedOther (1 / 10) = some r ∧ |r - 1 / 10| ≤ 1 / 10 / 2 ^ 11 := by
  obtain ⟨r, h1, h2, -⟩ := saved_close_partial (1 / 10) (by rw [abs_of_pos] <;> norm_num)
  refine ⟨r, h1, ?_⟩
  have := h2 (by rw [abs_of_pos] <;> norm_num)
  rwa [abs_of_pos (by norm_num : (0 : ℚ) < 1 / 10)] at this

end Hydrax
