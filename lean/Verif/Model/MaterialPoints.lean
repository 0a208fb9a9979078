import Verif.Model.Grid
import Mathlib.LinearAlgebra.Matrix.Determinant.Basic
import Mathlib.Data.Matrix.Mul
import Mathlib.LinearAlgebra.Matrix.Trace

/-!
# Material points

Model of `hydraxmpm/material_points/material_points.py`.
-/

namespace Hydrax

/-- 3×3 matrices, the shape of every tensor of the code. -/
abbrev Mat3 (K : Type*) := Matrix (Fin 3) (Fin 3) K

/-- `MaterialPointState` (material_points.py:117-151) with `n` points. `volScalar` records the shape of
`volume_stack`: `true` means the 0-d shape `()` that `.squeeze()` (usl.py:717) produces for one point. -/
structure MPState (K : Type*) (dim n : ℕ) where
  position : Fin n → Fin dim → K
  velocity : Fin n → Fin dim → K
  force : Fin n → Fin dim → K
  mass : Fin n → K
  volume : Fin n → K
  volume0 : Fin n → K
  L : Fin n → Mat3 K
  stress : Fin n → Mat3 K
  F : Fin n → Mat3 K
  FStore : Option (Fin n → Mat3 K)
  volScalar : Bool

/-- `RigidMaterialPointState` (material_points.py:71-84). -/
structure RigidState (K : Type*) (dim n : ℕ) where
  position : Fin n → Fin dim → K
  velocity : Fin n → Fin dim → K
  mass : Fin n → K
  normal : Fin n → Fin dim → K

/-- An entry of `world.material_points`. -/
inductive Body (K : Type*) (dim n : ℕ)
  | deformable (s : MPState K dim n)
  | rigid (s : RigidState K dim n)

section
variable {K : Type*} {dim n : ℕ}

/-- `position_stack` of either kind of body. -/
def Body.position : Body K dim n → Fin n → Fin dim → K
  | .deformable s => s.position
  | .rigid s => s.position

variable [Field K]

/-- Keyword arguments of `MaterialPointState.create` (material_points.py:154-168); `none` means not
given. `extra` holds `**kwargs`. -/
structure MPCreateArgs (K : Type*) (dim n : ℕ) where
  position : Fin n → Fin dim → K
  velocity : Option (Fin n → Fin dim → K) := none
  force : Option (Fin n → Fin dim → K) := none
  mass : Option (Fin n → K) := none
  volume : Option (Fin n → K) := none
  volume0 : Option (Fin n → K) := none
  L : Option (Fin n → Mat3 K) := none
  stress : Option (Fin n → Mat3 K) := none
  F : Option (Fin n → Mat3 K) := none
  storeF : Bool := false
  kwScalar : String → Option K := fun _ => none
  kwDensity : Option (Fin n → K) := none

/-- `MaterialPointState.create` (material_points.py:154-230) for given positions. -/
def MPState.create (a : MPCreateArgs K dim n) : MPState K dim n :=
  let volume := a.volume.getD fun _ =>
    1 * (((a.kwScalar "cell_size").getD 1) ^ 2 / ((a.kwScalar "ppc").getD 4))
  let F := a.F.getD fun _ => 1
  { position := a.position
    velocity := a.velocity.getD fun _ _ => 0
    force := a.force.getD fun _ _ => 0
    mass := a.mass.getD fun p => volume p * (a.kwDensity.getD (fun _ => 1000)) p
    volume := volume
    volume0 := a.volume0.getD volume
    L := a.L.getD fun _ => 0
    stress := a.stress.getD fun _ => 0
    F := F
    FStore := if a.storeF then some F else none
    volScalar := false }

/-- `density_stack` (material_points.py:232-235). -/
def MPState.density (s : MPState K dim n) (p : Fin n) : K := s.mass p / (s.volume p + 1 / 10 ^ 16)

/-- `density_ref_stack` (material_points.py:237-240). -/
def MPState.densityRef (s : MPState K dim n) (p : Fin n) : K :=
  s.mass p / (s.volume0 p + 1 / 10 ^ 16)

/-- `KE_stack` (material_points.py:256-260). -/
def MPState.KE (s : MPState K dim n) (p : Fin n) : K := 1 / 2 * s.mass p * ∑ a, s.velocity p a ^ 2

/-- `pressure_stack` (material_points.py:242-247): `trace / 3`, compression positive
(math_helpers.py, `get_pressure`). -/
def MPState.pressure (s : MPState K dim n) (p : Fin n) : K := Matrix.trace (s.stress p) / 3

end
end Hydrax
