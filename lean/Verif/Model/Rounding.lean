import Verif.Model.Float

/-!
# Accumulation in finite precision

JAX computes with 24 significant bits (`float32`) unless `jax_enable_x64` is set, then with 53. No file of the package sets it.
Simplification: the exponent is unbounded, as in `Verif.Model.Float`.
-/

namespace Hydrax

/-- Unit in the last place of a non-zero number with `p` significant bits. -/
def ulpBits (p : ℕ) (q : ℚ) : ℚ := 2 ^ (Int.log 2 |q| - (p - 1))

/-- Rounding to `p` significant bits, ties to even. -/
def rndBits (p : ℕ) (q : ℚ) : ℚ := if q = 0 then 0 else nearestEven (q / ulpBits p q) * ulpBits p q

/-- The clock after `n` calls of the solver (usl.py:123, 180; usl_asflip.py inherits it):
`time = time + dt`. -/
def clockRounded (rnd : ℚ → ℚ) (t0 dt : ℚ) : ℕ → ℚ
  | 0 => t0
  | n + 1 => rnd (clockRounded rnd t0 dt n + dt)

/-- A coordinate of a point whose velocity stays `v` (usl.py:702, usl_asflip.py:528):
`position_stack + p_vel_nt * dt`. -/
def driftRounded (rnd : ℚ → ℚ) (x v dt : ℚ) : ℕ → ℚ
  | 0 => x
  | n + 1 => rnd (driftRounded rnd x v dt n + rnd (v * dt))

/-- The stretch of a point along one axis at a constant rate of compression `l` along it, the other entries of `L` being zero
(usl.py:709-710, usl_asflip.py:497-498, driver.py:17-18): `F_inc = I - p_L * dt`, then `F_inc @ F`. The products with zero
entries and their sums are exact. -/
def stretchRounded (rnd : ℚ → ℚ) (l dt : ℚ) : ℕ → ℚ
  | 0 => 1
  | n + 1 => rnd (rnd (1 - rnd (l * dt)) * stretchRounded rnd l dt n)

end Hydrax
