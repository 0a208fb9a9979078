import Verif.Model.MaterialPoints
import Mathlib.Data.Fin.VecNotation
import Mathlib.LinearAlgebra.Matrix.Notation

/-!
# Tensor, conversion and rotation helpers

Model of `hydraxmpm/utils/math_helpers.py`. The `*_stack` functions are the same functions applied to
every entry (`vmap` or rank-agnostic code) and are not repeated, except where they do not work.
Not modelled: `get_hencky_strain` (159-186, singular value decomposition).
-/

namespace Hydrax

section
variable {K : Type*} [Field K] [LinearOrder K]

/-- `get_spin_tensor` (math_helpers.py:14-16); `get_skew_tensor` (473-486) is the same. -/
def spinTensor (L : Mat3 K) : Mat3 K := (1 / 2 : K) • (L - L.transpose)

/-- `get_sym_tensor` (math_helpers.py:19-21, redefined 443-456); `get_strain_rate_tensor` (189-193)
is the same. -/
def symTensor (L : Mat3 K) : Mat3 K := (1 / 2 : K) • (L + L.transpose)

/-- `get_jaumann_increment` (math_helpers.py:24-28). -/
def jaumann (T W : Mat3 K) (dt : K) : Mat3 K := T + dt • (W * T - T * W)

/-- `get_double_contraction` (math_helpers.py:54-60). -/
def dcontr (A B : Mat3 K) : K := ∑ i, ∑ j, A i j * B i j

/-- `get_pressure` (math_helpers.py:62-75). -/
def pressureOf (σ : Mat3 K) : K := 1 / 3 * σ.trace

/-- `get_dev_stress` with a given pressure (math_helpers.py:78-102). -/
def devStressP (σ : Mat3 K) (p : K) : Mat3 K := σ - p • (1 : Mat3 K)

/-- `get_dev_stress` with the default pressure (math_helpers.py:95-96). -/
def devStress (σ : Mat3 K) : Mat3 K := devStressP σ (pressureOf σ)

/-- `get_J2` of a deviatoric stress (math_helpers.py:116). -/
def J2dev (s : Mat3 K) : K := 1 / 2 * dcontr s s

/-- `get_J2(stress, dev_stress, pressure)` with optional arguments (math_helpers.py:105-116). -/
def getJ2 (σ s : Option (Mat3 K)) (p : Option K) : Except PyErr K :=
  match s, σ with
  | some s, _ => .ok (J2dev s)
  | none, none => .error .valueError
  | none, some σ => .ok (J2dev (devStressP σ (p.getD (pressureOf σ))))

/-- `get_q_vm(dev_stress=s)` (math_helpers.py:119-139). -/
def qVmDev (fn : MathFns K) (s : Mat3 K) : K := fn.sqrt (3 * J2dev s)

/-- `get_q_vm(stress=σ)` (math_helpers.py:119-139). -/
def qVm (fn : MathFns K) (σ : Mat3 K) : K := qVmDev fn (devStress σ)

/-- `get_scalar_shear_stress(dev_stress=s)` (math_helpers.py:141-146). -/
def tauDev (fn : MathFns K) (s : Mat3 K) : K := fn.sqrt (J2dev s)

/-- `get_volumetric_strain` (math_helpers.py:149-151). -/
def volStrain (e : Mat3 K) : K := e.trace

/-- `get_dev_strain` with a given volumetric strain (math_helpers.py:225-235). -/
def devStrainV (e : Mat3 K) (v : K) : Mat3 K := e - (v / 3) • (1 : Mat3 K)

/-- `get_dev_strain` with the default (math_helpers.py:232-233). -/
def devStrain (e : Mat3 K) : Mat3 K := devStrainV e (volStrain e)

/-- `get_shear_strain_vm(strain=e)` (math_helpers.py:195-222). -/
def shearStrainVm (fn : MathFns K) (e : Mat3 K) : K :=
  fn.sqrt (2 / 3 * dcontr (devStrain e) (devStrain e) + 1 / 10 ^ 16)

/-- `get_dev_strain_stack` (math_helpers.py:287-289) calls itself on the same argument. -/
def devStrainStack {n : ℕ} (_e : Fin n → Mat3 K) : Except PyErr (Fin n → Mat3 K) :=
  .error .recursionError

/-- `get_scalar_shear_strain(strain, dev_strain)` (math_helpers.py:307-314): without `dev_strain` it
passes three arguments to the two-argument `get_dev_strain`. -/
def scalarShearStrain (fn : MathFns K) (dev : Option (Mat3 K)) : Except PyErr K :=
  match dev with
  | none => .error .typeError
  | some e => .ok (fn.sqrt (1 / 2 * (e * e.transpose).trace))

/-- `get_KE` (math_helpers.py:330-332). -/
def kineticEnergy {dim : ℕ} (m : K) (v : Fin dim → K) : K := 1 / 2 * m * ∑ a, v a * v a

/-- `get_inertial_number` (math_helpers.py:341-356). -/
def inertialNumber (fn : MathFns K) (p dgamma d rho : K) : K :=
  dgamma * d / fn.sqrt (max p (1 / 10 ^ 6) / rho)

/-- `get_plastic_strain` (math_helpers.py:370-375). -/
def plasticStrain (e ee : Mat3 K) : Mat3 K := e - ee

/-- `get_small_strain` (math_helpers.py:384-386). -/
def smallStrain (F : Mat3 K) : Mat3 K := (1 / 2 : K) • (F.transpose + F) - 1

/-- `phi_to_e` (math_helpers.py:398-401). -/
def phiToE (phi : K) : K := 1 / phi - 1

/-- `e_to_phi` (math_helpers.py:411-426). -/
def eToPhi (e : K) : K := 1 / (1 + e)

/-- `get_phi_from_L` (math_helpers.py:503-517). -/
def phiFromL (L : Mat3 K) (phi dt : K) : K := phi / (1 - volStrain (dt • symTensor L))

/-- `get_e_from_bulk_density` (math_helpers.py:520-522). -/
def eFromBulkDensity (rhoS rhoB : K) : K := rhoS / rhoB

/-- `get_phi_from_bulk_density` (math_helpers.py:525-528). -/
def phiFromBulkDensity (rhoS rhoB : K) : K := eToPhi (eFromBulkDensity rhoS rhoB)

/-- `precondition_from_lithostatic` (math_helpers.py:543-571) for one point, slope angle `θ` already in
radians: the pair `(p, q)`. -/
def lithostatic (fn : MathFns K) (rho depth g θ k0 : K) : K × K :=
  let sv := rho * g * depth * fn.cos θ
  let tau := rho * g * depth * fn.sin θ
  let sh := k0 * sv
  ((sv + 2 * sh) / 3, fn.sqrt ((sv - sh) ^ 2 + 3 * tau ^ 2))

/-- `reconstruct_stress_from_triaxial` (math_helpers.py:574-592) for one point. -/
def triaxialStress (p q : K) : Mat3 K :=
  let sv := p + 2 / 3 * q
  let sh := p - 1 / 3 * q
  Matrix.diagonal ![sh, sh, sv]

/-- Value of `safe_inv_scalar_clamped` (math_helpers.py:595-620). The gradient trick
`d * slope + (inv - d * slope)` is kept. -/
def safeInv (clip d : K) : K :=
  let dSafe := d + 1 / 10 ^ 20 * (if d ≥ 0 then 1 else -1)
  let inv := 1 / dSafe
  let trueGrad := -1 / (dSafe * dSafe)
  let scale := min 1 (clip / (|trueGrad| + 1 / 10 ^ 12))
  let slope := trueGrad * scale
  d * slope + (inv - d * slope)

/-- `inv_2x2_robust` (math_helpers.py:623-636). -/
def inv2 (clip : K) (m : Matrix (Fin 2) (Fin 2) K) : Matrix (Fin 2) (Fin 2) K :=
  let det := m 0 0 * m 1 1 - m 0 1 * m 1 0
  safeInv clip det • !![m 1 1, -m 0 1; -m 1 0, m 0 0]

/-- `inv_3x3_robust` (math_helpers.py:31-51). -/
def inv3 (clip : K) (m : Mat3 K) : Mat3 K :=
  let a := m 0 0
  let b := m 0 1
  let c := m 0 2
  let d := m 1 0
  let e := m 1 1
  let f := m 1 2
  let g := m 2 0
  let h := m 2 1
  let i := m 2 2
  let cA := e * i - f * h
  let cB := -(d * i - f * g)
  let cC := d * h - e * g
  let cD := -(b * i - c * h)
  let cE := a * i - c * g
  let cF := -(a * h - b * g)
  let cG := b * f - c * e
  let cH := -(a * f - c * d)
  let cI := a * e - b * d
  let det := a * cA + b * cB + c * cC
  safeInv clip det • !![cA, cD, cG; cB, cE, cH; cC, cF, cI]

/-- `safe_norm` (math_helpers.py:639-644). -/
def safeNorm (fn : MathFns K) (eps : K) {dim : ℕ} (x : Fin dim → K) : K :=
  fn.sqrt (∑ a, x a ^ 2 + eps)

/-- `jnp.cross`. -/
def cross3 (u v : Fin 3 → K) : Fin 3 → K :=
  ![u 1 * v 2 - u 2 * v 1, u 2 * v 0 - u 0 * v 2, u 0 * v 1 - u 1 * v 0]

/-- `q[1:]` of a quaternion `[w, x, y, z]`. -/
def qVec (q : Fin 4 → K) : Fin 3 → K := ![q 1, q 2, q 3]

/-- `quaternion_rotate` (math_helpers.py:647-656). -/
def quatRotate (q : Fin 4 → K) (v : Fin 3 → K) : Fin 3 → K :=
  let uv := cross3 (qVec q) v
  let uuv := cross3 (qVec q) uv
  fun a => v a + 2 * (q 0 * uv a + uuv a)

/-- `quaternion_inv` (math_helpers.py:659-661). -/
def quatInv (q : Fin 4 → K) : Fin 4 → K := ![q 0, -q 1, -q 2, -q 3]

/-- `rotation_2d` (math_helpers.py:664-669). -/
def rot2 (fn : MathFns K) (θ : K) (v : Fin 2 → K) : Fin 2 → K :=
  let c := fn.cos θ
  let s := fn.sin θ
  ![c * v 0 - s * v 1, s * v 0 + c * v 1]

/-- `rotation_2d_inv` (math_helpers.py:672-677). -/
def rot2Inv (fn : MathFns K) (θ : K) (v : Fin 2 → K) : Fin 2 → K :=
  let c := fn.cos θ
  let s := fn.sin θ
  ![c * v 0 + s * v 1, -s * v 0 + c * v 1]

/-- `integrate_quaternion` (math_helpers.py:680-712). -/
def integrateQuat (fn : MathFns K) (q : Fin 4 → K) (w : Fin 3 → K) (dt : K) : Fin 4 → K :=
  let bx := w 0
  let by' := w 1
  let bz := w 2
  let aw := q 0
  let ax := q 1
  let ay := q 2
  let az := q 3
  let dq : Fin 4 → K :=
    ![-bx * ax - by' * ay - bz * az,
      bx * aw + by' * az - bz * ay,
      -bx * az + by' * aw + bz * ax,
      bx * ay - by' * ax + bz * aw]
  let qn := fun k => q k + 1 / 2 * dt * dq k
  fun k => qn k / (fn.sqrt (∑ j, qn j ^ 2) + 1 / 10 ^ 12)

/-- `rotate_2d_update` (math_helpers.py:715-716). -/
def rotate2dUpdate (θ ω dt : K) : K := θ + ω * dt

end
end Hydrax
