import Verif.Model.Basic
import Mathlib.Analysis.SpecialFunctions.Pow.Real
import Mathlib.Analysis.SpecialFunctions.Trigonometric.Basic

/-!
# The real functions
-/

namespace Hydrax

/-- The functions of `jax.numpy` on the reals. `cbrt` is the odd real cube root. -/
noncomputable def realFns : MathFns ℝ :=
  { sqrt := Real.sqrt
    cbrt := fun x => if 0 ≤ x then x ^ (1 / 3 : ℝ) else -((-x) ^ (1 / 3 : ℝ))
    sigmoid := fun x => 1 / (1 + Real.exp (-x))
    exp := Real.exp
    log := Real.log
    pow := fun x y => x ^ y
    sin := Real.sin
    cos := Real.cos }

@[simp] theorem realFns_sqrt : realFns.sqrt = Real.sqrt := rfl
@[simp] theorem realFns_exp : realFns.exp = Real.exp := rfl
@[simp] theorem realFns_log : realFns.log = Real.log := rfl
@[simp] theorem realFns_sin : realFns.sin = Real.sin := rfl
@[simp] theorem realFns_cos : realFns.cos = Real.cos := rfl
@[simp] theorem realFns_pow (x y : ℝ) : realFns.pow x y = x ^ y := rfl

theorem realFns_cbrt_cube (x : ℝ) : realFns.cbrt x ^ 3 = x := by
  have key : ∀ y : ℝ, 0 ≤ y → (y ^ (1 / 3 : ℝ)) ^ 3 = y := by
    intro y hy
    rw [← Real.rpow_natCast, ← Real.rpow_mul hy]; norm_num
  simp only [realFns]
  split_ifs with h
  · exact key x h
  · have := key (-x) (by linarith)
    rw [neg_pow, this]; norm_num

end Hydrax
