import Verif.Model.IEEE
import Verif.Model.Sdf

/-!
# Differentiated distances, and contact in an arithmetic with NaN

The distances of the obstacles as programs for `jax.grad` (sdfobject.py:150), and what the collider and the gather do with the normals,
in the arithmetic of `Model/IEEE`. `jnp.abs` is `maximum(x, -x)`: both have derivative zero at zero.
-/

namespace Hydrax

section
variable {K : Type*} [Field K] {ι : Type*}

/-- `jnp.linalg.norm` of a vector: the root of the sum of squares. -/
def normProg {n : ℕ} : Ex K (Fin n) :=
  .sqrt ((List.finRange n).foldr (fun k e => .add (.mul (.var k) (.var k)) e) (.const 0))

/-- `jnp.abs`. -/
def absProg (a : Ex K ι) : Ex K ι := .max a (.neg a)

/-- `jnp.max` of a non-empty vector. -/
def maxvProg {m : ℕ} (d : Fin (m + 1) → Ex K ι) : Ex K ι := ((List.finRange m).map fun a => d a.succ).foldr Ex.max (d 0)

/-- `SphereSDF.signed_distance` (sdfcollection.py:78-89) of a sphere with centre `c`. -/
def sphereProg {n : ℕ} (c : Fin n → K) (r : K) : Ex K (Fin n) :=
  .sub (normProg.subst fun a => .sub (.var a) (.const (c a))) (.const r)

/-- `PlaneSDF.signed_distance_local` (sdfcollection.py:108-111). -/
def planeProg {n : ℕ} (m : Fin n → K) : Ex K (Fin n) :=
  (List.finRange n).foldr (fun k e => .add (.mul (.var k) (.const (m k))) e) (.const 0)

/-- `BoxSDF.signed_distance_local` (sdfcollection.py:52-60). -/
def boxProg {m : ℕ} (half : Fin (m + 1) → K) : Ex K (Fin (m + 1)) :=
  let d := fun a => Ex.sub (absProg (.var a)) (.const (half a))
  .add ((safeNormProg (1 / 10 ^ 12)).subst fun a => .max (d a) (.const 0)) (.min (maxvProg d) (.const 0))

/-- `CapsuleSDF.signed_distance_local` (sdfcollection.py:130-144). -/
def capsuleProg (r hh : K) {m : ℕ} : Ex K (Fin (m + 2)) :=
  .sub ((safeNormProg (1 / 10 ^ 12)).subst fun a =>
    if a = 1 then .sub (.var 1) (clipProg (some (-hh)) (some hh) (.var 1)) else .var a) (.const r)

/-- The combination of radial and axial distance used by the cylinders (sdfcollection.py:192-202, 233-240). -/
def combine2Prog (a b : Ex K ι) : Ex K ι :=
  .add ((safeNormProg (n := 2) (1 / 10 ^ 12)).subst ![.max a (.const 0), .max b (.const 0)]) (.min (.max a b) (.const 0))

/-- `CylinderSDF.signed_distance_local` (sdfcollection.py:223-240). -/
def cylinderProg (r hh : K) : Ex K (Fin 3) :=
  combine2Prog (.sub ((safeNormProg (n := 2) (1 / 10 ^ 12)).subst ![.var 0, .var 2]) (.const r)) (.sub (absProg (.var 1)) (.const hh))

/-- Distance from the axis of `HollowCylinderSDF` in 3D (sdfcollection.py:172). -/
def axisProg : Ex K (Fin 3) := (normProg (n := 2)).subst ![.var 0, .var 2]

/-- `HollowCylinderSDF.signed_distance_local` in 3D (sdfcollection.py:169-173, 189-202). -/
def pipeProg (rOut rIn : K) : Ex K (Fin 3) :=
  combine2Prog (.max (.sub axisProg (.const rOut)) (.sub (.const rIn) axisProg)) (.var 1)

/-- `HollowCylinderSDF.signed_distance_local` in 2D as a ring (sdfcollection.py:174-202). -/
def ringProg (rOut rIn : K) : Ex K (Fin 2) :=
  combine2Prog (.max (.sub normProg (.const rOut)) (.sub (.const rIn) normProg)) (.const (-10 ^ 9))

/-- `TorusSDF.signed_distance_local` (sdfcollection.py:263-274). -/
def torusProg (R r : K) : Ex K (Fin 3) :=
  .sub ((normProg (n := 2)).subst ![.sub ((safeNormProg (n := 2) (1 / 10 ^ 12)).subst ![.var 0, .var 2]) (.const R), .var 1]) (.const r)

/-- `CompositeSDF.signed_distance_local` (sdfcollection.py:374-380) of parts `d :: ds`. Simplified: nested `minimum`s instead of one
`jnp.min`, which differ in the weights at ties of three or more parts only. -/
def compositeProg (d : Ex K ι) (ds : List (Ex K ι)) : Ex K ι := ds.foldr Ex.min d

/-- `MaterialPointCloudSDF.signed_distance` with `smooth_k = 0` (sdfcollection.py:520-538, gridcontact.py:105), of a list of points with
their radii. -/
def cloudProg {n : ℕ} (p : (Fin n → K) × K) (ps : List ((Fin n → K) × K)) : Ex K (Fin n) :=
  compositeProg (sphereProg p.1 p.2) (ps.map fun q => sphereProg q.1 q.2)

/-- `transform_to_local` in 2D (sdfobject.py:89-96, math_helpers.py:672-677); `c` and `s` are cosine and sine of the angle. -/
def localProg2 (c s : K) (com : Fin 2 → K) : Fin 2 → Ex K (Fin 2) :=
  let v := fun a => Ex.sub (.var a) (.const (com a))
  ![.add (.mul (.const c) (v 0)) (.mul (.const s) (v 1)), .add (.mul (.const (-s)) (v 0)) (.mul (.const c) (v 1))]

/-- `jnp.cross` with a constant vector. -/
def crossProg (u : Fin 3 → K) (v : Fin 3 → Ex K ι) : Fin 3 → Ex K ι :=
  ![.sub (.mul (.const (u 1)) (v 2)) (.mul (.const (u 2)) (v 1)), .sub (.mul (.const (u 2)) (v 0)) (.mul (.const (u 0)) (v 2)),
    .sub (.mul (.const (u 0)) (v 1)) (.mul (.const (u 1)) (v 0))]

/-- `transform_to_local` in 3D (sdfobject.py:89-98, math_helpers.py:647-661). -/
def localProg3 (q : Fin 4 → K) (com : Fin 3 → K) : Fin 3 → Ex K (Fin 3) :=
  let v := fun a => Ex.sub (.var a) (.const (com a))
  let uv := crossProg (qVec (quatInv q)) v
  let uuv := crossProg (qVec (quatInv q)) uv
  fun a => .add (v a) (.mul (.const 2) (.add (.mul (.const (q 0)) (uv a)) (uuv a)))

end

/-- Sum of a vector. -/
noncomputable def sumX {n : ℕ} (f : Fin n → XR) : XR := (List.finRange n).foldr (fun k s => XR.add (f k) s) (.num 0)

/-- `jnp.dot`. -/
noncomputable def dotX {n : ℕ} (u v : Fin n → XR) : XR := sumX fun k => XR.mul (u k) (v k)

/-- `x - y`. -/
noncomputable def subX (x y : XR) : XR := XR.add x (XR.neg y)

/-- `get_normal` (sdfobject.py:146-156): the gradient of reverse mode, divided by its length. -/
noncomputable def normalX {n : ℕ} (dist : Ex XR (Fin n)) (x : Fin n → XR) : Fin n → XR := fun a =>
  XR.div (adGrad ieeeAd dist x a) (XR.add (XR.sqrt (dotX (adGrad ieeeAd dist x) (adGrad ieeeAd dist x))) (.num (1 / 10 ^ 12)))

/-- `apply_frictional_contact` (sdf_collider.py:26-59). -/
noncomputable def contactX {n : ℕ} (vIn : Fin n → XR) (dist : XR) (normal vWall : Fin n → XR) (mu dt gap bias : XR) : Fin n → XR :=
  let vn := dotX (fun a => subX (vIn a) (vWall a)) normal
  let vBias := XR.max (.num 0) (XR.mul (XR.div (subX gap dist) dt) bias)
  let dvk := XR.max (.num 0) (subX vBias vn)
  let vRelC := fun a => subX (XR.add (vIn a) (XR.mul dvk (normal a))) (vWall a)
  let vnVec := fun a => XR.mul (dotX vRelC normal) (normal a)
  let vt := fun a => subX (vRelC a) (vnVec a)
  let vtMag := XR.sqrt (dotX vt vt)
  let limit := XR.mul mu dvk
  let reduction := if XR.ge vtMag (.num (1 / 10 ^ 12)) && !XR.eq vtMag (.num (1 / 10 ^ 12)) then XR.min vtMag limit else .num 0
  let vtF := fun a => XR.mul (vt a) (subX (.num 1) (XR.div reduction (XR.add vtMag (.num (1 / 10 ^ 12)))))
  fun a => XR.add (XR.add (vWall a) (vnVec a)) (vtF a)

/-- `_collide_node` (sdf_collider.py:211-237) and the momentum of the node (194). -/
noncomputable def collideX {n : ℕ} (gap dist : XR) (v normal vWall : Fin n → XR) (mu dt mass : XR) : Fin n → XR := fun a =>
  XR.mul ((if XR.ge (.num 0) dist then contactX v dist normal vWall mu dt gap (.num 0) else v) a) mass

/-- Velocity of a slot of the USL gather (usl.py:600-609). -/
noncomputable def slotX {n : ℕ} (mass : ℝ) (moment : Fin n → XR) : Fin n → XR := fun a =>
  if mass > 1 / 10 ^ 12 then XR.div (moment a) (.num mass) else .num 0

/-- The velocity of a point near an obstacle (usl.py:642-647). -/
noncomputable def ghostX {n : ℕ} (v normal vWall : Fin n → XR) : Fin n → XR := fun a =>
  let vRel := fun b => subX (v b) (vWall b)
  XR.add (vWall a) (subX (vRel a) (XR.mul (XR.min (.num 0) (dotX vRel normal)) (normal a)))

/-- Blend of nodal and point velocity by the mask of a slot (usl.py:651-656). -/
noncomputable def maskX {n : ℕ} (mask : ℝ) (v ghost : Fin n → XR) : Fin n → XR := fun a =>
  XR.add (XR.mul (v a) (.num mask)) (XR.mul (ghost a) (subX (.num 1) (.num mask)))

/-- New velocity of a point, the weighted sum over the slots of its stencil (usl.py:662, 684-689). -/
noncomputable def gatherX {n m : ℕ} (w : Fin m → ℝ) (v : Fin m → Fin n → XR) : Fin n → XR := fun a =>
  sumX fun k => XR.mul (.num (w k)) (v k a)

end Hydrax
