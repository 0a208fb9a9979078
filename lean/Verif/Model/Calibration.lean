import Verif.Model.ElementTest
import Verif.Model.LawTable
import Verif.Model.Scripts

/-!
# Calibration of Cam-Clay against a triaxial test

Model of `projects/mcc_trx_inverse/mcc_trx_inverse.py`: the material of a vector of parameters, the test of one chain, its
loss, and the optimiser `optax.adam`. The matrix exponential, the Newton derivative inside the test and `jnp.interp` are
parameters.
-/

namespace Hydrax

section
variable {K : Type*} [Field K] [LinearOrder K]

/-- The material of a vector `(M, lam, kap_perc, N, nu)` (mcc_trx_inverse.py:39-52, 71-79, 159-166; defaults
modifiedcamclay.py:160-177). -/
def calibParams (x : Fin 5 → K) : MCCParams K :=
  { nu := x 4, M := x 0, lam := x 1, kap := calibKap x, N := x 3, pRef := 1000, KMin := none, KMax := none, pMin := 10
    rhoP := 2675 }

/-- The point of a test: `create_state_from_ocr` and `MaterialPointState.create` (mcc_trx_inverse.py:85-99). -/
def ocrPoint (fn : MathFns K) (pr : MCCParams K) (p ocr : K) : MPState K 3 1 × LawState K :=
  let i := mccFromOcr fn pr p ocr none
  (MPState.create { position := fun _ _ => 0, stress := some fun _ => i.stress, kwDensity := some fun _ => i.density },
    .mcc (fun _ => i.pc) (some fun _ => i.stress) (fun _ => 0))

/-- The test of a chain (mcc_trx_inverse.py:56-62, 81, 105-113, 120). -/
def calibTest (law : Law K 3 (LawState K)) (confine : K) : TriaxialTest K 3 (LawState K) :=
  { solver := { law := law }, confine := confine, isUndrained := true, axialRate := .scalar (2 / 100), numSteps := 1000
    dt := .scalar (1 / 100), stride := 1 }

/-- `LoadingProcedure.__call__` (mcc_trx_inverse.py:63-117): pressures and shear stresses in kPa and axial strains in percent. -/
def calibKernel (fn : MathFns K) (ops : NewtonOps K) (expm : Mat3 K → Mat3 K) (grad : (K → K) → K → K) (x : Fin 5 → K)
    (confine : K) : Except PyErr (List K × List K × Option (List K)) :=
  let t := calibTest (mccLaw fn ops (calibParams x) true) confine
  let i := ocrPoint fn (calibParams x) confine 1
  andThen (t.run expm grad i.1 i.2) fun tr =>
    .ok (tr.map (fun r => r.1.pressure 0 / 1000), tr.map (fun r => qVm fn (r.1.stress 0) / 1000), t.axialStrain.map (List.map (· * 100)))

/-- The squared errors of one test (mcc_trx_inverse.py:168-178). `data` holds measured strains and shear stresses. -/
def calibErrors (interp : List K → List K → K → K) (data : List (K × K)) (r : List K × List K × Option (List K)) : List K :=
  data.map fun d => (interp (r.2.2.getD []) r.2.1 d.1 - d.2) ^ 2

/-- `loss_fn_single_chain` (mcc_trx_inverse.py:156-179). A test that raises counts as 0 here; `calib_runs` shows that none does. -/
def calibLoss (fn : MathFns K) (ops : NewtonOps K) (expm : Mat3 K → Mat3 K) (grad : (K → K) → K → K)
    (interp : List K → List K → K → K) (data : List (K × K)) (confines : List K) (x : Fin 5 → K) : K :=
  let e := confines.flatMap fun c =>
    match calibKernel fn ops expm grad x c with
    | .error _ => []
    | .ok r => calibErrors interp data r
  e.sum / (e.length : K)

/-- The state of `optax.adam`: first and second moments and the counter. -/
structure AdamState (K : Type*) (N d : ℕ) where
  m : Fin N → Fin d → K
  v : Fin N → Fin d → K
  t : ℕ

/-- `optimizer.init` (mcc_trx_inverse.py:187). -/
def AdamState.init {N d : ℕ} : AdamState K N d := { m := fun _ _ => 0, v := fun _ _ => 0, t := 0 }

/-- `optax.adam(learning_rate=0.02).update` with its defaults `b1 = 0.9`, `b2 = 0.999`, `eps = 1e-8` (mcc_trx_inverse.py:186, 205). -/
def adamUpdate {N d : ℕ} (fn : MathFns K) (g : Fin N → Fin d → K) (o : AdamState K N d) : (Fin N → Fin d → K) × AdamState K N d :=
  let m := fun c k => 1 / 10 * g c k + 9 / 10 * o.m c k
  let v := fun c k => 1 / 1000 * g c k ^ 2 + 999 / 1000 * o.v c k
  let t := o.t + 1
  (fun c k => -(2 / 100) * (m c k / (1 - (9 / 10) ^ t) / (fn.sqrt (v c k / (1 - (999 / 1000) ^ t)) + 1 / 10 ^ 8)), { m := m, v := v, t := t })

/-- The optimiser inside `update_step_2d` (mcc_trx_inverse.py:198-206): `grad` is `jax.grad` of the loss. -/
def adamStep {N d : ℕ} (fn : MathFns K) (grad : (Fin d → K) → Fin d → K) (pop : Fin N → Fin d → K) (o : AdamState K N d) :
    (Fin N → Fin d → K) × AdamState K N d :=
  adamUpdate fn (fun c => grad (pop c)) o

/-- The printed sensitivity of parameter `k` (mcc_trx_inverse.py:316-327). -/
def calibSensitivity {d : ℕ} (grad : (Fin d → K) → Fin d → K) (best : Fin d → K) (loss : K) (k : Fin d) : K :=
  |grad best k| * (|best k| / (loss + 1 / 10 ^ 10))

end
end Hydrax
