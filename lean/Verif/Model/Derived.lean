import Verif.Model.MathHelpers
import Verif.Model.MaterialPoints

/-!
# Derived quantities of material points

Model of `get_hencky_strain` (`hydraxmpm/utils/math_helpers.py`) and of the properties of
`MaterialPointState` (`hydraxmpm/material_points/material_points.py`) that are not in
`Model/MaterialPoints`. `jnp.linalg.svd` is a parameter.
-/

namespace Hydrax

/-- Result of `jnp.linalg.svd` (math_helpers.py:172). -/
structure Svd (K : Type*) where
  u : Mat3 K
  s : Fin 3 → K
  vh : Mat3 K

section
variable {K : Type*} [Field K] [LinearOrder K] {dim n : ℕ}

/-- `get_hencky_strain` (math_helpers.py:155-186) after the decomposition. -/
def hencky (fn : MathFns K) (d : Svd K) : Mat3 K :=
  fun i j => ∑ k, d.u i k * -fn.log (max (d.s k) (1 / 10 ^ 12)) * d.u j k

/-- `q_stack` (material_points.py:262-267). -/
def MPState.q (fn : MathFns K) (s : MPState K dim n) (p : Fin n) : K := qVm fn (s.stress p)

/-- `KE_density_stack` and `q_p_stack` (material_points.py:249-254, 269-273): the exception is built but not
raised and nothing is returned. -/
def MPState.noValue (_s : MPState K dim n) : Option (Fin n → K) := none

/-- `eps_stack` (material_points.py:275-279). -/
def MPState.eps (fn : MathFns K) (svd : Mat3 K → Svd K) (s : MPState K dim n) (p : Fin n) : Mat3 K :=
  hencky fn (svd (s.F p))

/-- `stored_eps_stack` (material_points.py:282-286); `none` if there is no stored gradient. -/
def MPState.storedEps (fn : MathFns K) (svd : Mat3 K → Svd K) (s : MPState K dim n) (p : Fin n) : Option (Mat3 K) :=
  s.FStore.map fun f => hencky fn (svd (f p))

/-- `eps_v_stack` (material_points.py:288-292). -/
def MPState.epsV (fn : MathFns K) (svd : Mat3 K → Svd K) (s : MPState K dim n) (p : Fin n) : K :=
  volStrain (s.eps fn svd p)

/-- `deps_dt_stack` (material_points.py:294-297). -/
def MPState.depsDt (s : MPState K dim n) (p : Fin n) : Mat3 K := symTensor (s.L p)

/-- `shear_strain_rate_stack` (material_points.py:299-301). -/
def MPState.shearStrainRate (fn : MathFns K) (s : MPState K dim n) (p : Fin n) : K := shearStrainVm fn (s.depsDt p)

/-- `shear_strain_stack` (material_points.py:302-304). -/
def MPState.shearStrain (fn : MathFns K) (svd : Mat3 K → Svd K) (s : MPState K dim n) (p : Fin n) : K :=
  shearStrainVm fn (s.eps fn svd p)

end
end Hydrax
