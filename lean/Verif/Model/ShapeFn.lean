import Verif.Model.Basic

/-!
# Shape functions

Model of `hydraxmpm/shapefunctions/{linear,quadratic,cubic}.py`.
Each Python function maps the normalised offset `dist = (x_p - x_i)/h` to a weight and a gradient.
`jnp.piecewise` with pairwise disjoint conditions is an `if` cascade with default 0.
-/

namespace Hydrax

/-- The names accepted by `ShapeFunctionMapping` (mapping.py:41-45). -/
inductive Kernel
  | linear
  | quadratic
  | cubic
deriving DecidableEq, Repr

section
variable {K : Type*} [Field K] [LinearOrder K]

/-- linear.py:41-45. -/
def linearBasis (x : K) : K := if |x| < 1 then 1 - |x| else 0

/-- linear.py:49. -/
def linearDBasis (invH x : K) : K := if |x| < 1 then -(sgn x) * invH else 0

/-- quadratic.py:43-47 (conditions), 61-70 (values). -/
def quadraticBasis (x : K) : K :=
  if -3 / 2 ≤ x ∧ x ≤ -1 / 2 then (1 / 2) * x * x + (3 / 2) * x + 9 / 8
  else if -1 / 2 < x ∧ x ≤ 1 / 2 then -x * x + 3 / 4
  else if 1 / 2 < x ∧ x ≤ 3 / 2 then (1 / 2) * x * x - (3 / 2) * x + 9 / 8
  else 0

/-- quadratic.py:43-47 (conditions), 71-80 (derivatives; `h` there is the inverse cell size). -/
def quadraticDBasis (invH x : K) : K :=
  if -3 / 2 ≤ x ∧ x ≤ -1 / 2 then invH * (x + 3 / 2)
  else if -1 / 2 < x ∧ x ≤ 1 / 2 then invH * (-2 * x)
  else if 1 / 2 < x ∧ x ≤ 3 / 2 then invH * (x - 3 / 2)
  else 0

/-- cubic.py:171-179, the four node types selected by `lax.switch`. -/
inductive CubicType
  | middle
  | boundary
  | leftPlus
  | rightMinus
deriving DecidableEq, Repr

/-- cubic.py:44-49 (conditions), 57-70, 87-99, 115-127, 143-155 (values per node type). -/
def cubicBasis (ty : CubicType) (x : K) : K :=
  if -2 ≤ x ∧ x < -1 then
    match ty with
    | .middle => ((1 / 6 * x + 1) * x + 2) * x + 4 / 3
    | .boundary => ((1 / 6 * x + 1) * x + 2) * x + 4 / 3
    | .leftPlus => 0
    | .rightMinus => ((1 / 6 * x + 1) * x + 2) * x + 4 / 3
  else if -1 ≤ x ∧ x < 0 then
    match ty with
    | .boundary => (-1 / 6 * x * x + 1) * x + 1
    | .leftPlus => (-1 / 3 * x - 1) * x * x + 2 / 3
    | .middle => (-(1 / 2) * x - 1) * x * x + 2 / 3
    | .rightMinus => (-(1 / 2) * x - 1) * x * x + 2 / 3
  else if 0 ≤ x ∧ x < 1 then
    match ty with
    | .boundary => (1 / 6 * x * x - 1) * x + 1
    | .leftPlus => (1 / 2 * x - 1) * x * x + 2 / 3
    | .middle => (1 / 2 * x - 1) * x * x + 2 / 3
    | .rightMinus => (1 / 3 * x - 1) * x * x + 2 / 3
  else if 1 ≤ x ∧ x < 2 then
    match ty with
    | .middle => ((-1 / 6 * x + 1) * x - 2) * x + 4 / 3
    | .boundary => ((-1 / 6 * x + 1) * x - 2) * x + 4 / 3
    | .leftPlus => ((-1 / 6 * x + 1) * x - 2) * x + 4 / 3
    | .rightMinus => 0
  else 0

/-- cubic.py:44-49 (conditions), 72-83, 101-111, 128-139, 157-167 (derivatives per node type). -/
def cubicDBasis (ty : CubicType) (invH x : K) : K :=
  if -2 ≤ x ∧ x < -1 then
    match ty with
    | .middle => invH * ((1 / 2 * x + 2) * x + 2)
    | .boundary => invH * ((1 / 2 * x + 2) * x + 2)
    | .leftPlus => 0
    | .rightMinus => invH * ((1 / 2 * x + 2) * x + 2)
  else if -1 ≤ x ∧ x < 0 then
    match ty with
    | .boundary => invH * (-(1 / 2) * x * x + 1)
    | .leftPlus => invH * (-x - 2) * x
    | .middle => invH * (-3 / 2 * x - 2) * x
    | .rightMinus => invH * (-3 / 2 * x - 2) * x
  else if 0 ≤ x ∧ x < 1 then
    match ty with
    | .boundary => invH * (1 / 2 * x * x - 1)
    | .leftPlus => invH * (3 / 2 * x - 2) * x
    | .middle => invH * (3 / 2 * x - 2) * x
    | .rightMinus => invH * (x - 2) * x
  else if 1 ≤ x ∧ x < 2 then
    match ty with
    | .middle => invH * ((-(1 / 2) * x + 2) * x - 2)
    | .boundary => invH * ((-(1 / 2) * x + 2) * x - 2)
    | .leftPlus => invH * ((-(1 / 2) * x + 2) * x - 2)
    | .rightMinus => 0
  else 0

/-- 1D value of the kernel chosen by name; `compute` always passes `intr_node_type=0`
(mapping.py:198-200), i.e. the middle cubic spline. -/
def basis1 : Kernel → K → K
  | .linear => linearBasis
  | .quadratic => quadraticBasis
  | .cubic => cubicBasis .middle

/-- 1D derivative of the kernel chosen by name (mapping.py:198-200). -/
def dbasis1 (invH : K) : Kernel → K → K
  | .linear => linearDBasis invH
  | .quadratic => quadraticDBasis invH
  | .cubic => cubicDBasis .middle invH

/-- Tensor-product gradient: the `if dim == 2 / elif dim == 3 / else` block
(linear.py:53-70, quadratic.py:85-101, cubic.py:181-198 — identical in the three files). -/
def tensorGrad : (dim : ℕ) → (Fin dim → K) → (Fin dim → K) → (Fin dim → K)
  | 2, basis, dbasis => ![dbasis 0 * basis 1, dbasis 1 * basis 0]
  | 3, basis, dbasis =>
      ![dbasis 0 * basis 1 * basis 2, dbasis 1 * basis 0 * basis 2, dbasis 2 * basis 0 * basis 1]
  | _, _, dbasis => dbasis

/-- `vmap_*_shapefunction`: weight (product of the 1D values) and gradient padded to 3D
(linear.py:27-85, quadratic.py:29-113, cubic.py:30-210). -/
def shapeFunction (ker : Kernel) {dim : ℕ} (dist : Fin dim → K) (invH : K) : K × (Fin 3 → K) :=
  let basis := fun d => basis1 ker (dist d)
  let dbasis := fun d => dbasis1 invH ker (dist d)
  (∏ d, basis d, pad3 (tensorGrad dim basis dbasis))

end
end Hydrax
