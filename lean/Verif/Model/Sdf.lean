import Verif.Model.Step
import Verif.Model.MathHelpers
import Verif.Model.Forces
import Mathlib.Data.Finset.Lattice.Fold

/-!
# Obstacles

Model of `hydraxmpm/sdf/sdfobject.py` and `hydraxmpm/sdf/sdfcollection.py`. `StarSDF`,
`MaterialPointCloudSDF` and `GridSDF` are in `Model/SdfMore`. Not modelled: `sdfmorph.py` (commented
out). `jax.grad` is a parameter.
-/

namespace Hydrax

/-- `SDFObjectState` (sdfobject.py:34-49). The planar and spatial variants of `rotation` and
`angular_velocity` are separate fields; `dim` decides which is used. -/
structure SdfState (K : Type*) (dim : ℕ) where
  com : Fin dim → K
  velocity : Fin dim → K
  angle : K
  omega : K
  quat : Fin 4 → K
  omega3 : Fin 3 → K

section
variable {K : Type*} [Field K] [LinearOrder K] {dim : ℕ}

/-- `create_state` (sdfobject.py:59-86) with optional arguments. -/
def SdfState.create (com : Fin dim → K) (velocity : Option (Fin dim → K) := none) (omega : Option K := none)
    (omega3 : Option (Fin 3 → K) := none) (angle : Option K := none) (quat : Option (Fin 4 → K) := none) :
    SdfState K dim :=
  { com := com, velocity := velocity.getD fun _ => 0, angle := angle.getD 0, omega := omega.getD 0
    quat := quat.getD ![1, 0, 0, 0], omega3 := omega3.getD fun _ => 0 }

/-- The inverse rotation of `transform_to_local` (sdfobject.py:94-98). -/
def rotInv (fn : MathFns K) : (dim : ℕ) → SdfState K dim → (Fin dim → K) → Fin dim → K
  | 2, s, v => rot2Inv fn s.angle v
  | 3, s, v => quatRotate (quatInv s.quat) v
  | _, _, v => v

/-- `transform_to_local` (sdfobject.py:89-98). -/
def toLocal (fn : MathFns K) (s : SdfState K dim) (x : Fin dim → K) : Fin dim → K :=
  rotInv fn dim s fun a => x a - s.com a

/-- `update_kinematics` (sdfobject.py:111-131). -/
def updateKin (fn : MathFns K) (s : SdfState K dim) (dt : K) : SdfState K dim :=
  let com := fun a => s.com a + s.velocity a * dt
  if dim = 2 then { s with com := com, angle := s.angle + s.omega * dt }
  else { s with com := com, quat := integrateQuat fn s.quat s.omega3 dt }

/-- The term `w x r` of `get_velocity` (sdfobject.py:164-173). -/
def spinVel : (dim : ℕ) → SdfState K dim → (Fin dim → K) → Fin dim → K
  | 2, s, r => ![-s.omega * r 1, s.omega * r 0]
  | 3, s, r => cross3 s.omega3 r
  | _, _, _ => fun _ => 0

/-- `get_velocity` (sdfobject.py:157-178). -/
def sdfVelocity (s : SdfState K dim) (x : Fin dim → K) : Fin dim → K :=
  fun a => s.velocity a + spinVel dim s (fun b => x b - s.com b) a

/-- `get_normal` (sdfobject.py:146-156) for a given gradient operator. -/
def autoNormal (sqrt : K → K) (grad : ((Fin dim → K) → K) → (Fin dim → K) → Fin dim → K)
    (dist : (Fin dim → K) → K) (x : Fin dim → K) : Fin dim → K :=
  fun a => grad dist x a / (sqrt (∑ b, grad dist x b ^ 2) + 1 / 10 ^ 12)

/-- `jnp.min` of a non-empty vector. -/
def minv {m : ℕ} (f : Fin (m + 1) → K) : K := Finset.univ.inf' ⟨0, Finset.mem_univ 0⟩ f

/-- `jnp.max` of a non-empty vector. -/
def maxv {m : ℕ} (f : Fin (m + 1) → K) : K := Finset.univ.sup' ⟨0, Finset.mem_univ 0⟩ f

/-- Euclidean length, `jnp.linalg.norm`. -/
def norm2 (fn : MathFns K) {m : ℕ} (v : Fin m → K) : K := fn.sqrt (∑ a, v a ^ 2)

/-- `BoxSDF.signed_distance_local` (sdfcollection.py:52-60) with the default `eps=1e-12` of `safe_norm`. -/
def boxDist (fn : MathFns K) {m : ℕ} (half : Fin (m + 1) → K) (x : Fin (m + 1) → K) : K :=
  let d := fun a => |x a| - half a
  safeNorm fn (1 / 10 ^ 12) (fun a => max (d a) 0) + min (maxv d) 0

/-- `BoxSDF.__init__` (sdfcollection.py:48-50). -/
def boxHalf (size : Fin dim → K) : Fin dim → K := fun a => size a / 2

/-- `SphereSDF.signed_distance_local` (sdfcollection.py:78-82). -/
def sphereDist (fn : MathFns K) (r : K) (x : Fin dim → K) : K := norm2 fn x - r

/-- `PlaneSDF.__init__` (sdfcollection.py:104-106). -/
def planeNormal (fn : MathFns K) (n : Fin dim → K) : Fin dim → K :=
  fun a => n a / (norm2 fn n + 1 / 10 ^ 12)

/-- `PlaneSDF.signed_distance_local` (sdfcollection.py:108-111). -/
def planeDist (n : Fin dim → K) (x : Fin dim → K) : K := dotv x n

/-- `jnp.clip`. -/
def clipK (lo hi x : K) : K := min (max x lo) hi

/-- `CapsuleSDF.__init__`, `CylinderSDF.__init__` (sdfcollection.py:126-128, 219-221). -/
def halfHeight (height : K) : K := height / 2

/-- `CapsuleSDF.signed_distance_local` (sdfcollection.py:130-144). -/
def capsuleDist (fn : MathFns K) (r hh : K) {m : ℕ} (x : Fin (m + 2) → K) : K :=
  safeNorm fn (1 / 10 ^ 12) (Function.update x 1 (x 1 - clipK (-hh) hh (x 1))) - r

/-- The combination of radial and axial distance used by the cylinders (sdfcollection.py:192-202, 233-240). -/
def combine2 (fn : MathFns K) (a b : K) : K :=
  safeNorm fn (1 / 10 ^ 12) ![max a 0, max b 0] + min (max a b) 0

/-- `HollowCylinderSDF.signed_distance_local` in 3D (sdfcollection.py:169-173, 189-202): the height is not used. -/
def hollow3Dist (fn : MathFns K) (_height rOut rIn : K) (x : Fin 3 → K) : K :=
  let r := norm2 fn ![x 0, x 2]
  combine2 fn (max (r - rOut) (rIn - r)) (x 1)

/-- `HollowCylinderSDF.signed_distance_local` in 2D (sdfcollection.py:174-202). -/
def hollow2Dist (fn : MathFns K) (ring : Bool) (height rOut rIn : K) (x : Fin 2 → K) : K :=
  let r := if ring then norm2 fn x else |x 0|
  let dy := if ring then -10 ^ 9 else |x 1| - height / 2
  combine2 fn (max (r - rOut) (rIn - r)) dy

/-- `CylinderSDF.signed_distance_local` (sdfcollection.py:223-240). -/
def cylinderDist (fn : MathFns K) (r hh : K) (x : Fin 3 → K) : K :=
  combine2 fn (safeNorm fn (1 / 10 ^ 12) ![x 0, x 2] - r) (|x 1| - hh)

/-- `TorusSDF.signed_distance_local` (sdfcollection.py:263-274). -/
def torusDist (fn : MathFns K) (R r : K) (x : Fin 3 → K) : K :=
  norm2 fn ![safeNorm fn (1 / 10 ^ 12) ![x 0, x 2] - R, x 1] - r

/-- `CompositeSDF.signed_distance_local` (sdfcollection.py:374-380) on the distances of its parts. -/
def compositeDist {m : ℕ} (parts : Fin (m + 1) → (Fin dim → K) → K) (x : Fin dim → K) : K :=
  minv fun i => parts i x

/-- `CompositeSDF.get_surface_friction_local` (sdfcollection.py:382-388). -/
def compositeFriction {m : ℕ} (parts : Fin (m + 1) → (Fin dim → K) → K) (frictions : Fin (m + 1) → K)
    (x : Fin dim → K) : K := frictions (argmin m fun i => parts i x)

/-- `DomainSDF` (sdfcollection.py:391-408). -/
structure DomainParams (K : Type*) (dim : ℕ) where
  lo : Fin dim → K
  hi : Fin dim → K
  frictions : Fin (dim + dim) → K

/-- `frictions` argument of `DomainSDF`: a number or a list. -/
inductive FrictionArg (K : Type*)
  | scalar (f : K)
  | list (l : List K)

/-- `DomainSDF.__init__` (sdfcollection.py:410-430). -/
def DomainParams.create (origin stop : Fin dim → K) (fr : FrictionArg K) (offset : K) :
    Except PyErr (DomainParams K dim) :=
  let lo := fun a => origin a + offset
  let hi := fun a => stop a + offset
  match fr with
  | .scalar f => .ok { lo := lo, hi := hi, frictions := fun _ => f }
  | .list l =>
    if h : l.length = dim + dim then .ok { lo := lo, hi := hi, frictions := fun i => l.get (i.cast h.symm) }
    else .error .valueError

/-- `all_dists` (sdfcollection.py:437-441). -/
def domainDists (d : DomainParams K dim) (x : Fin dim → K) : Fin (dim + dim) → K :=
  fun i => if h : i.val < dim then x ⟨i, h⟩ - d.lo ⟨i, h⟩
    else d.hi ⟨i - dim, by omega⟩ - x ⟨i - dim, by omega⟩

/-- `DomainSDF.signed_distance` (sdfcollection.py:432-453; `transform_to_local` is the identity). -/
def domainDist {m : ℕ} (d : DomainParams K (m + 1)) (x : Fin (m + 1) → K) : K :=
  minv (m := m + 1 + m) (domainDists d x)

/-- Index of the closest wall (sdfcollection.py:468, 479). -/
def domainWall {m : ℕ} (d : DomainParams K (m + 1)) (x : Fin (m + 1) → K) : Fin (m + 1 + (m + 1)) :=
  argmin (m + 1 + m) (domainDists d x)

/-- `DomainSDF.get_surface_friction_local` (sdfcollection.py:461-469). -/
def domainFriction {m : ℕ} (d : DomainParams K (m + 1)) (x : Fin (m + 1) → K) : K :=
  d.frictions (domainWall d x)

/-- `DomainSDF.get_normal` (sdfcollection.py:471-495). -/
def domainNormal {m : ℕ} (d : DomainParams K (m + 1)) (x : Fin (m + 1) → K) : Fin (m + 1) → K :=
  let idx := (domainWall d x).val
  let sign : K := if idx < m + 1 then 1 else -1
  fun a => (if a.val = idx % (m + 1) then 1 else 0) * sign

/-- An obstacle given by its local distance and friction, with the methods of the base class
(sdfobject.py:89-207). -/
def baseSdf (fn : MathFns K) (grad : ((Fin dim → K) → K) → (Fin dim → K) → Fin dim → K)
    (dist friction : (Fin dim → K) → K) : SdfLogic K dim (SdfState K dim) :=
  { updateKin := updateKin fn
    dist := fun s x => dist (toLocal fn s x)
    normal := fun s x => autoNormal fn.sqrt grad (fun y => dist (toLocal fn s y)) x
    velocity := fun s x _ => sdfVelocity s x
    friction := fun s x => friction (toLocal fn s x) }

/-- `SphereSDF`: the distance skips the rotation (sdfcollection.py:84-89); it has no friction of its own
(sdfobject.py:184). -/
def sphereSdf (fn : MathFns K) (grad : ((Fin dim → K) → K) → (Fin dim → K) → Fin dim → K) (r : K) :
    SdfLogic K dim (SdfState K dim) :=
  { baseSdf fn grad (sphereDist fn r) (fun _ => 1) with
    dist := fun s x => sphereDist fn r fun a => x a - s.com a
    normal := fun s x => autoNormal fn.sqrt grad (fun y => sphereDist fn r fun a => y a - s.com a) x }

/-- `DomainSDF` as seen by the solver (sdfcollection.py:448-456 for the overridden methods). -/
def domainSdf {m : ℕ} (d : DomainParams K (m + 1)) : SdfLogic K (m + 1) (SdfState K (m + 1)) :=
  { updateKin := fun s _ => s
    dist := fun _ x => domainDist d x
    normal := fun _ x => domainNormal d x
    velocity := fun s x _ => sdfVelocity s x
    friction := fun _ x => domainFriction d x }

end
end Hydrax
