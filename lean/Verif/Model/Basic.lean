import Mathlib.Algebra.Order.Field.Basic
import Mathlib.Algebra.Order.Floor.Ring
import Mathlib.Algebra.BigOperators.Fin
import Mathlib.Data.Fin.Tuple.Basic

/-!
# Conventions shared by all model files

Exact arithmetic in a linearly ordered field `K` stands for JAX floats (see DESIGN.md).
-/

namespace Hydrax

/-- Python exceptions as values: the classes of error the modelled code can raise. -/
inductive PyErr
  | attributeError
  | typeError
  | valueError
  | indexError
  | keyError
  | unboundLocalError
  | recursionError
  | fileNotFoundError
  | runtimeError
  | zeroDivisionError
deriving DecidableEq, Repr

/-- The transcendental functions of `jax.numpy` that the code calls. The model takes them as a parameter:
a theorem that needs one of their laws either assumes it or is stated on `ℝ` with the real functions. -/
structure MathFns (K : Type*) where
  sqrt : K → K
  cbrt : K → K
  sigmoid : K → K
  exp : K → K
  log : K → K
  pow : K → K → K
  sin : K → K
  cos : K → K

section
variable {K : Type*} [Field K] [LinearOrder K]

/-- `jnp.sign`: −1, 0 or 1. -/
def sgn (x : K) : K := if x < 0 then -1 else if x = 0 then 0 else 1

/-- Python's `int(x)` on a float: truncation towards zero. -/
def pyInt [FloorRing K] (x : K) : ℤ := if 0 ≤ x then ⌊x⌋ else ⌈x⌉

/-- `jnp.pad(v, (0, 3 - dim))`: pad a `dim`-vector with zeros to three components. -/
def pad3 {dim : ℕ} (v : Fin dim → K) : Fin 3 → K :=
  fun k => if h : k.val < dim then v ⟨k.val, h⟩ else 0

end

/-- Row-major (C-order) flattening of a multi index, as done by `ravel_multi_index` and by
`reshape(-1)`. -/
def ravel : (dim : ℕ) → (Fin dim → ℕ) → (Fin dim → ℕ) → ℕ
  | 0, _, _ => 0
  | d + 1, size, idx => idx 0 * (∏ k, Fin.tail size k) + ravel d (Fin.tail size) (Fin.tail idx)

/-- Row-major un-flattening: the multi index of row `r` of `reshape(-1, ...)`. -/
def unravel : (dim : ℕ) → (Fin dim → ℕ) → ℕ → (Fin dim → ℕ)
  | 0, _, _ => Fin.elim0
  | d + 1, size, r =>
      Fin.cons (r / (∏ k, Fin.tail size k)) (unravel d (Fin.tail size) (r % (∏ k, Fin.tail size k)))

end Hydrax
