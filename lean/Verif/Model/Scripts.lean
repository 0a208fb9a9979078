import Verif.Model.Floor
import Verif.Model.Float
import Verif.Model.MaterialPoints
import Verif.Model.Step
import Mathlib.Algebra.Order.Floor.Semiring

/-!
# The scripts in `projects/`

Set-up of the granular columns and of the two discs, the loops that run and record a simulation, the calibration of Cam-Clay, and
the saving of trajectories. Simplifications: a solver is any function on states; a state of the collapse is its floor, its gravity
and the rest; the optimiser is any function.
-/

namespace Hydrax

/-! ### Number of steps -/

/-- `int(total / dt)` (collapse.py:123-124, collapse_setup.py:216-217, 413-414, two_sphere_impact.py:26-27) with `rnd` the rounding
of the division. -/
def stepCount (rnd : ℚ → ℚ) (total dt : ℚ) : ℤ := pyInt (rnd (total / dt))

/-! ### Loops -/

/-- `jax.lax.fori_loop(0, steps, loop_body, state)` with the body of collapse.py:126-137, collapse_setup.py:221-235 and
two_sphere_impact.py:128-136: the state, and the states handed to the call-back in order. -/
def loopLog {S : Type*} (solver : S → S) (output steps : ℕ) (st : S) : S × List S :=
  (List.range steps).foldl (fun v i =>
    let next := solver v.1
    (next, if i % output = 0 then v.2 ++ [next] else v.2)) (st, [])

/-- `jax.lax.fori_loop(0, n, lambda i, s: solver(s), s)` (collapse_setup.py:418-421). -/
def iterLoop {S : Type*} (solver : S → S) (n : ℕ) (st : S) : S := (List.range n).foldl (fun s _ => solver s) st

/-- `jax.lax.scan(inner_step, state, xs=None, length=n)` (collapse_setup.py:417-435): the trajectory. -/
def scanTraj {S : Type*} (solver : S → S) (output n : ℕ) (st : S) : List S :=
  ((List.range n).foldl (fun (v : S × List S) _ =>
    let next := iterLoop solver output v.1
    (next, v.2 ++ [next])) (st, [])).2

/-! ### Parameters of the collapse -/

section
variable {K : Type*} [Field K] [LinearOrder K]

/-- `CollapseParams` (collapse_setup.py:12-17). -/
structure CollapseParams (K : Type*) (n m : ℕ) where
  bumps : Spectral K n
  frictions : Spectral K m
  tiltAngle : K
  simId : ℕ

/-- `CollapseParams.get_gravity_vector` (collapse_setup.py:19-22). -/
def CollapseParams.gravity {n m : ℕ} (fn : MathFns K) (pi : K) (c : CollapseParams K n m) : Fin 2 → K :=
  rot2 fn (c.tiltAngle * (pi / 180)) ![0, -(981 / 100)]

/-- A state of the collapse: what the two functions below replace, and the rest. -/
structure CollapseState (K : Type*) (n m : ℕ) (R : Type*) where
  floor : FloorState K n m
  gravity : Fin 2 → K
  rest : R

/-- `CollapseSetup.run` (collapse_setup.py:202-238). Without parameters the call-back raises `TypeError` in `int(None)`
(collapse_setup.py:360), which reaches the caller as a run-time error. -/
def collapseRun {n m : ℕ} {R : Type*} (solver : CollapseState K n m R → CollapseState K n m R) (output steps : ℕ)
    (st : CollapseState K n m R) : Option (CollapseParams K n m) → Except PyErr (CollapseState K n m R × List (CollapseState K n m R))
  | none => if steps = 0 then .ok (st, []) else .error .runtimeError
  | some c => .ok (loopLog solver output steps { st with floor := { bumps := c.bumps, frictions := some c.frictions } })

/-- `CollapseSetup.run_with_trajectory` (collapse_setup.py:389-437). Without parameters `params.sim_id` (collapse_setup.py:423)
raises. -/
def collapseTraj {n m : ℕ} {R : Type*} (fn : MathFns K) (pi : K) (solver : CollapseState K n m R → CollapseState K n m R)
    (output steps : ℕ) (st : CollapseState K n m R) :
    Option (CollapseParams K n m) → Except PyErr (List (CollapseState K n m R))
  | none => if output = 0 then .error .zeroDivisionError else .error .attributeError
  | some c =>
    if output = 0 then .error .zeroDivisionError
    else .ok (scanTraj solver output (steps / output)
      { st with floor := { bumps := c.bumps, frictions := some c.frictions }, gravity := c.gravity fn pi })

/-! ### The column and the discs -/

/-- Position of point `r` of a column of `nx` points per row (collapse.py:50-55, collapse_setup.py:68-73):
`meshgrid` and `flatten` run along the rows. -/
def columnPos (sep : K) (nx r : ℕ) : Fin 2 → K := ![((r % nx : ℕ) : K) * sep + 2 * sep, ((r / nx : ℕ) : K) * sep + 2 * sep]

/-- The points of the column (collapse.py:50-88; collapse_setup.py:68-98): `nx` by `ny` points at a spacing of
`cell_size / ppc`. -/
def columnPoints (cellSize ppc rho : K) (nx ny : ℕ) (stress : Option (Fin (nx * ny) → Mat3 K)) : MPState K 2 (nx * ny) :=
  MPState.create
    { position := fun r => columnPos (cellSize / ppc) nx r
      stress := stress
      kwDensity := some fun _ => rho
      kwScalar := fun k => if k = "cell_size" then some cellSize else if k = "ppc" then some ppc else none }

/-- Initial stress of a point at height `y` (collapse_setup.py:79-90). -/
def columnStress (fn : MathFns K) (pi rho columnHeight tilt y : K) : Mat3 K :=
  let depth := max (columnHeight - y) (5 / 100)
  let pq := lithostatic fn rho depth (981 / 100) (tilt * (pi / 180)) (1 / 2)
  triaxialStress pq.1 pq.2

/-- `spacing` of `create_circle` (two_sphere_impact.py:37). -/
def circleSpacing (cellSize ppc : K) : K := cellSize / (ppc / 2)

/-- The mask of `create_circle` (two_sphere_impact.py:38, 43-45). -/
def circleMask (center : Fin 2 → K) (radius : K) (x : Fin 2 → K) : Prop :=
  (x 0 - center 0) ^ 2 + (x 1 - center 1) ^ 2 < radius ^ 2 + 5 / 10 ^ 5

/-! ### Calibration -/

/-- What is carried through the loop of mcc_trx_inverse.py:222-236. -/
structure CalibState (K O : Type*) (N d : ℕ) where
  pop : Fin N → Fin d → K
  opt : O
  losses : Fin N → K

/-- `update_step_2d` (mcc_trx_inverse.py:194-210): `loss` of one chain, `upd` gradient and optimiser. -/
def calibStep {O : Type*} {N d : ℕ} (loss : (Fin d → K) → K) (upd : (Fin N → Fin d → K) → O → (Fin N → Fin d → K) × O)
    (lo hi : Fin d → K) (s : CalibState K O N d) : CalibState K O N d :=
  let u := upd s.pop s.opt
  { pop := fun c k => min (max (s.pop c k + u.1 c k) (lo k)) (hi k)
    opt := u.2
    losses := fun c => loss (s.pop c) }

/-- The loop (mcc_trx_inverse.py:222-223), `n` times. -/
def calibRun {O : Type*} {N d : ℕ} (loss : (Fin d → K) → K) (upd : (Fin N → Fin d → K) → O → (Fin N → Fin d → K) × O)
    (lo hi : Fin d → K) : ℕ → CalibState K O N d → CalibState K O N d
  | 0, s => s
  | n + 1, s => calibStep loss upd lo hi (calibRun loss upd lo hi n s)

/-- What is printed and used as the estimate (mcc_trx_inverse.py:234-241): parameters and loss. -/
def calibReport {O : Type*} {N d : ℕ} (s : CalibState K O (N + 1) d) : (Fin d → K) × K :=
  (s.pop (argmin N s.losses), s.losses (argmin N s.losses))

/-- Lower ends of `PARAM_SPECS` (mcc_trx_inverse.py:27-33): M, lam, kap_perc, N, nu. -/
def calibLo : Fin 5 → K := ![1 / 2, 1 / 100, 1 / 10, 4 / 10, 1 / 10]

/-- Upper ends of `PARAM_SPECS` (mcc_trx_inverse.py:27-33). -/
def calibHi : Fin 5 → K := ![2, 2 / 10, 9 / 10, 4, 45 / 100]

/-- `kap` from the vector of parameters (mcc_trx_inverse.py:164). -/
def calibKap (x : Fin 5 → K) : K := x 1 * x 2

end

/-! ### Saving trajectories -/

/-- `astype(jnp.float16)`: 11 significant bits, ties to even, spacing `2^-24` below `2^-14`, `none` for an infinity. -/
def rnd16 (q : ℚ) : Option ℚ :=
  if |q| < 1 / 2 ^ 14 then some (nearestEven (q * 2 ^ 24) / 2 ^ 24)
  else if 65520 ≤ |q| then none
  else some (nearestEven (q / 2 ^ (Int.log 2 |q| - 10)) * 2 ^ (Int.log 2 |q| - 10))

/-- What `save_compressed_sim` stores of one number of a stack of stresses (save_data.py:67-72, 82-83). -/
def savedStress (x : ℚ) : Option ℚ := rnd16 (x / 1000)

/-- What `save_compressed_sim` stores of one number of any other stack (save_data.py:82-83). -/
def savedOther (x : ℚ) : Option ℚ := rnd16 x

end Hydrax
