import Mathlib.LinearAlgebra.Matrix.Trace
import Mathlib.Analysis.SpecialFunctions.Pow.Real

/-!
# Specification of stress measures

Compression-positive 3×3 stresses. Nothing here refers to the model.
-/

namespace Hydrax.Spec

section
variable {K : Type*} [Field K]

/-- Mean stress. -/
def meanStress (σ : Matrix (Fin 3) (Fin 3) K) : K := (σ 0 0 + σ 1 1 + σ 2 2) / 3

/-- Deviatoric part. -/
def dev (σ : Matrix (Fin 3) (Fin 3) K) : Matrix (Fin 3) (Fin 3) K :=
  fun i j => σ i j - if i = j then meanStress σ else 0

/-- `A : B`. -/
def ddot (A B : Matrix (Fin 3) (Fin 3) K) : K := ∑ i, ∑ j, A i j * B i j

/-- Second invariant of the deviator. -/
def J2 (σ : Matrix (Fin 3) (Fin 3) K) : K := ddot (dev σ) (dev σ) / 2

end

/-- Drucker-Prager yield function with cohesion `c`. -/
noncomputable def dpYield (mu1 mu2 c : ℝ) (σ : Matrix (Fin 3) (Fin 3) ℝ) : ℝ :=
  Real.sqrt (J2 σ) - mu1 * meanStress σ - mu2 * c

end Hydrax.Spec
