import Verif.Model.Step

/-!
# Element tests

Model of `hydraxmpm/element_tests/driver.py` and `triaxial_test.py` for one material point (`L` has shape
`(1, 3, 3)`). `expm` and the derivative used by Newton's method are parameters. A shape error inside a law is raised
while tracing, whatever the values; here the residual of a failing law is 0 and the error is raised by the final step.
-/

namespace Hydrax

/-- `ElementTestDriver` (driver.py:7-10). -/
structure Driver (K : Type*) (dim : ℕ) (LS : Type*) where
  law : Law K dim LS
  isFLinearApprox : Bool := false

/-- A number or an array of numbers, as accepted for `axial_rate` and `dt`. -/
inductive Sched (K : Type*)
  | scalar (x : K)
  | array (l : List K)

/-- `TriaxialTest` (triaxial_test.py:9-19). -/
structure TriaxialTest (K : Type*) (dim : ℕ) (LS : Type*) where
  solver : Driver K dim LS
  confine : K
  axialRate : Sched K
  dt : Sched K
  isUndrained : Bool := false
  isPConstant : Bool := false
  numSteps : ℕ := 2000
  numNewton : ℕ := 20
  stride : ℕ := 1
  startStatic : Bool := false

section
variable {K : Type*} [Field K] {dim : ℕ} {LS : Type*}

/-- `ElementTestDriver.step` (driver.py:12-47). `linear` is the parameter `is_F_linear_approx` (`None` is `none`); the
attribute of the same name is not read. -/
def Driver.step (expm : Mat3 K → Mat3 K) (d : Driver K dim LS) (mp : MPState K dim 1) (ls : LS) (L : Mat3 K) (dt : K)
    (linear : Option Bool := none) : Except PyErr (MPState K dim 1 × LS) :=
  let Fnext : Fin 1 → Mat3 K := fun p =>
    if linear = some true then (1 - dt • L) * mp.F p else expm (-(dt • L)) * mp.F p
  andThen (d.law.update { mp with L := fun _ => L, F := Fnext } ls dt) fun r =>
    .ok ({ mp with
            L := r.1.L
            F := Fnext
            stress := r.1.stress
            volume := fun p => (Fnext p).det * mp.volume0 p
            volScalar := false }, r.2)

/-- `x[idx]` for an array (out-of-range indices are clamped), `x` for a scalar (triaxial_test.py:39-51). -/
def Sched.at (s : Sched K) (idx : ℕ) : K :=
  match s with
  | .scalar x => x
  | .array l => l.getD (min idx (l.length - 1)) 0

/-- The velocity gradient of a triaxial step (triaxial_test.py:61-64, 103-106, 112-115). -/
def triaxialL (lateral axial : K) : Mat3 K := Matrix.diagonal ![lateral, lateral, axial]

variable [DecidableEq K]

/-- `residual` (triaxial_test.py:60-75). -/
def TriaxialTest.residual (expm : Mat3 K → Mat3 K) (t : TriaxialTest K dim LS) (mp : MPState K dim 1) (ls : LS)
    (rate dt x : K) : K :=
  match t.solver.step expm mp ls (triaxialL x rate) dt with
  | .error _ => 0
  | .ok r => if t.isPConstant then (r.1.stress 0).trace / 3 - t.confine else r.1.stress 0 0 0 - t.confine

/-- The damped Newton iteration (triaxial_test.py:77-100). A zero derivative gives an infinite or undefined iterate, which
is discarded. -/
def newtonIterate (grad : (K → K) → K → K) (f : K → K) : ℕ → K
  | 0 => 0
  | k + 1 =>
    let x := newtonIterate grad f k
    if grad f x = 0 then x else x + 4 / 5 * (-f x / grad f x)

/-- The lateral rate of a step: `get_L_undrained` or `get_L_drained` (triaxial_test.py:59-118). -/
def TriaxialTest.lateral (expm : Mat3 K → Mat3 K) (grad : (K → K) → K → K) (t : TriaxialTest K dim LS)
    (mp : MPState K dim 1) (ls : LS) (rate dt : K) : K :=
  if t.isUndrained then -(1 / 2) * rate else newtonIterate grad (t.residual expm mp ls rate dt) t.numNewton

/-- `static_run` (triaxial_test.py:54-57, 118-133). -/
def TriaxialTest.stepIdx (expm : Mat3 K → Mat3 K) (grad : (K → K) → K → K) (t : TriaxialTest K dim LS)
    (c : MPState K dim 1 × LS) (idx : ℕ) : Except PyErr (MPState K dim 1 × LS) :=
  if t.startStatic ∧ idx = 0 then .ok c
  else
    let rate := t.axialRate.at idx
    let dt := t.dt.at idx
    t.solver.step expm c.1 c.2 (triaxialL (t.lateral expm grad c.1 c.2 rate dt) rate) dt

/-- Number of steps (triaxial_test.py:143-147). -/
def TriaxialTest.steps (t : TriaxialTest K dim LS) : ℕ :=
  match t.axialRate with
  | .scalar _ => t.numSteps
  | .array l => l.length

end

/-- A loop over indices; the first error stops it (`jax.lax.scan`, carry only). -/
def scanCarry {St : Type*} (f : St → ℕ → Except PyErr St) : St → List ℕ → Except PyErr St
  | s, [] => .ok s
  | s, i :: is => andThen (f s i) fun s' => scanCarry f s' is

/-- `jax.lax.scan(run_inner, ...)`: the state at the end of every row (triaxial_test.py:135-141, 154). -/
def scanRows {St : Type*} (f : St → ℕ → Except PyErr St) : St → List (List ℕ) → Except PyErr (List St)
  | _, [] => .ok []
  | s, r :: rs => andThen (scanCarry f s r) fun s' => andThen (scanRows f s' rs) fun t => .ok (s' :: t)

/-- `jnp.arange(n * s).reshape((n, s))` (triaxial_test.py:148-151). -/
def indexRows (n s : ℕ) : List (List ℕ) := (List.range n).map fun k => (List.range s).map fun i => k * s + i

section
variable {K : Type*} [Field K] [DecidableEq K] {dim : ℕ} {LS : Type*}

/-- `TriaxialTest.run` (triaxial_test.py:37-169): the recorded states. `num_steps // 0` raises `ZeroDivisionError`, an
impossible reshape `TypeError`. -/
def TriaxialTest.run (expm : Mat3 K → Mat3 K) (grad : (K → K) → K → K) (t : TriaxialTest K dim LS)
    (mp : MPState K dim 1) (ls : LS) : Except PyErr (List (MPState K dim 1 × LS)) :=
  if t.stride = 0 then .error .zeroDivisionError
  else
    let n := t.steps / t.stride
    if n * t.stride ≠ t.steps then .error .typeError
    else scanRows (t.stepIdx expm grad) (mp, ls) (indexRows n t.stride)

/-- Every `s`-th entry, `l[::s]`, for `s > 0`. -/
def everyNth (s : ℕ) (l : List K) : List K := (List.range ((l.length + s - 1) / s)).map fun k => l.getD (k * s) 0

/-- `jnp.linspace(0, e, n)`. -/
def linspace0 (e : K) (n : ℕ) : List K :=
  (List.range n).map fun i : ℕ => if n = 1 then 0 else (i : K) * e / ((n : K) - 1)

/-- `jnp.cumsum`. -/
def cumsum (l : List K) : List K := (List.range l.length).map fun k => (l.take (k + 1)).sum

/-- `axial_strain_stack` (triaxial_test.py:25-35). An array rate with a scalar `dt` gives a two-dimensional result and
arrays of different lengths an error; both are `none`. -/
def TriaxialTest.axialStrain (t : TriaxialTest K dim LS) : Option (List K) :=
  match t.axialRate, t.dt with
  | .scalar r, .scalar d => some (everyNth t.stride (linspace0 (r * d * t.numSteps) t.numSteps))
  | .scalar r, .array d => some (everyNth t.stride (cumsum (d.map (r * ·))))
  | .array r, .array d => if r.length = d.length then some (everyNth t.stride (cumsum (List.zipWith (· * ·) r d))) else none
  | .array _, .scalar _ => none

end
end Hydrax
