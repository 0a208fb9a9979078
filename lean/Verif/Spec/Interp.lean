import Mathlib.Algebra.BigOperators.Group.Finset.Basic
import Mathlib.Algebra.Order.Field.Basic
import Mathlib.Data.Nat.Choose.Basic
import Mathlib.Data.Nat.Factorial.Basic
import Mathlib.Algebra.BigOperators.Fin

/-!
# Specification of interpolation

Nothing here refers to the model. The kernels are specified as centred cardinal B-splines in
truncated-power form.
-/

namespace Hydrax.Spec

section
variable {K : Type*} [Field K] [LinearOrder K]

/-- `x₊ⁿ`, the truncated power (for `n ≥ 1`). -/
def tpow (n : ℕ) (x : K) : K := max x 0 ^ n

/-- Centred cardinal B-spline of degree `n`:
`B_n(x) = (1/n!) ∑_k (-1)^k C(n+1,k) (x + (n+1)/2 - k)₊ⁿ`. -/
def bspline (n : ℕ) (x : K) : K :=
  (∑ k ∈ Finset.range (n + 2),
    (-1) ^ k * ((n + 1).choose k : K) * tpow n (x + ((n : K) + 1) / 2 - k)) / (n.factorial : K)

/-- Closed axis-parallel box. -/
def InBox {dim : ℕ} (lo hi x : Fin dim → K) : Prop := ∀ d, lo d ≤ x d ∧ x d ≤ hi d

end
end Hydrax.Spec
