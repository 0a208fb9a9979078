import Verif.Model.Step

/-!
# Forces

Model of `hydraxmpm/forces/` (gravity, damping, SDF collider, grid contact) as hooks of the solver.
-/

namespace Hydrax

/-- Entries of `mechanics.forces`. -/
inductive ForceState (K : Type*) (dim : ℕ)
  | gravity (g : Fin dim → K)
  | damping (alpha : K)
  | none

section
variable {z : Sz} {K : Type*} [Field K] [LinearOrder K] {dim : ℕ} {SS LS : Type*}

/-- `f_states[f_idx].gravity` (gravity.py:105, 114): `IndexError` / `AttributeError` as in Python. -/
def getGravity (fs : List (ForceState K dim)) (i : ℕ) : Except PyErr (Fin dim → K) :=
  match fs[i]? with
  | .none => .error .indexError
  | some (.gravity g) => .ok g
  | some _ => .error .attributeError

/-- `f_states[f_idx].alpha` (damping.py:79, 89). -/
def getDamping (fs : List (ForceState K dim)) (i : ℕ) : Except PyErr K :=
  match fs[i]? with
  | .none => .error .indexError
  | some (.damping a) => .ok a
  | some _ => .error .attributeError

/-- Apply `f` to the grids of `gs` in turn. -/
def mapGrids (f : GridArrays K dim → GridArrays K dim) (gs : List (Fin z.G))
    (x : Ctx z K dim SS LS (ForceState K dim)) : Ctx z K dim SS LS (ForceState K dim) :=
  gs.foldl (fun x g => x.setGrid g (f (x.cache.grids g))) x

/-- `Gravity` (gravity.py). On the grid: add `m g` to the force of each listed grid (93-136). On
particles: the first pass of the loop ends with `mp_states[self.p_idx]`, an attribute that does not
exist (167), so a non-empty list raises `AttributeError`. -/
def gravityForce (onGrid : Bool) (ps : List (Fin z.P)) (gs : List (Fin z.G)) (fIdx : ℕ) :
    ForceHooks z K dim SS LS (ForceState K dim) :=
  { ForceHooks.default with
    gridForces := fun x _ _ =>
      if !onGrid then .ok x
      else andThen (getGravity x.mech.forces fIdx) fun grav => .ok (mapGrids (gravityGrid grav) gs x)
    preP2g := fun x _ _ =>
      if onGrid then .ok x
      else if ps = [] then (match x.mech.forces[fIdx]? with
        | .none => .error .indexError
        | some _ => .ok x)
      else andThen (getGravity x.mech.forces fIdx) fun _ => .error .attributeError }

/-- Damping of the particle forces of one body (damping.py:117-131). -/
def dampingBody (alpha : K) {n : ℕ} (s : MPState K dim n) : MPState K dim n :=
  { s with force := fun p a => dampForce alpha (s.force p a) (s.velocity p a) }

/-- `Damping` (damping.py:65-134). -/
def dampingForce (onGrid : Bool) (ps : List (Fin z.P)) (gs : List (Fin z.G)) (fIdx : ℕ) :
    ForceHooks z K dim SS LS (ForceState K dim) :=
  { ForceHooks.default with
    gridForces := fun x _ _ =>
      if !onGrid then .ok x
      else andThen (getDamping x.mech.forces fIdx) fun a => .ok (mapGrids (dampingGrid a) gs x)
    preP2g := fun x _ _ =>
      if onGrid then .ok x
      else andThen (getDamping x.mech.forces fIdx) fun a =>
        foldE (fun x p =>
          match x.world.bodies p with
          | .rigid _ => .error .attributeError
          | .deformable s => .ok (x.setBody p (.deformable (dampingBody a s)))) x ps }

/-- Dot product. -/
def dotv (u v : Fin dim → K) : K := ∑ a, u a * v a

/-- `apply_frictional_contact` (sdf_collider.py:26-59). -/
def frictionalContact (sqrt : K → K) (vIn : Fin dim → K) (dist : K) (normal vWall : Fin dim → K)
    (mu dt gap bias : K) : Fin dim → K :=
  let vRel := fun a => vIn a - vWall a
  let vn := dotv vRel normal
  let vBias := max 0 ((gap - dist) / dt * bias)
  let dvk := max 0 (vBias - vn)
  let vCorr := fun a => vIn a + dvk * normal a
  let vRelC := fun a => vCorr a - vWall a
  let vnVec := fun a => dotv vRelC normal * normal a
  let vt := fun a => vRelC a - vnVec a
  let vtMag := sqrt (dotv vt vt)
  let limit := mu * dvk
  let reduction := if vtMag > 1 / 10 ^ 12 then min vtMag limit else 0
  let vtF := fun a => vt a * (1 - reduction / (vtMag + 1 / 10 ^ 12))
  fun a => vWall a + vnVec a + vtF a

/-- `_collide_node` (sdf_collider.py:211-237). -/
def collideNode (sqrt : K → K) (gap dist : K) (vNode normal vObj : Fin dim → K) (mu dt : K) :
    Fin dim → K :=
  let vn := dotv (fun a => vNode a - vObj a) normal
  if dist ≤ 0 ∨ (dist ≤ 0 ∧ vn < 0) then frictionalContact sqrt vNode dist normal vObj mu dt gap 0
  else vNode

/-- Update of one grid in `SDFCollider.apply_grid_moments` (sdf_collider.py:165-197). -/
def collideGrid (sqrt : K → K) (gap base dt : K) (geo : Geom K dim ℕ) (g : GridArrays K dim) :
    GridArrays K dim :=
  { g with momentNt := fun j a =>
      let invMass := if g.mass j > 1 / 10 ^ 14 then 1 / g.mass j else 0
      let vel := fun b => g.momentNt j b * invMass
      collideNode sqrt gap (geo.dists j) vel (geo.normals j) (geo.wallVels j) (base * geo.friction j) dt a
        * g.mass j }

/-- `SDFCollider` (sdf_collider.py:61-209); `sdf = none` stands for `sdf_idx = -1` (140-141). -/
def sdfColliderForce (fn : MathFns K) (sdf : Option (Fin z.D)) (gs : List (Fin z.G)) (gap base : K) :
    ForceHooks z K dim SS LS (ForceState K dim) :=
  { ForceHooks.default with
    gridMoments := fun x dt _ =>
      match sdf with
      | .none => .ok x
      | some d => .ok (gs.foldl (fun x g =>
          x.setGrid g (collideGrid fn.sqrt gap base dt (x.cache.nodeGeoms g d) (x.cache.grids g))) x) }

/-- `GridContact` (gridcontact.py:27-151). `apply_grid_moments` takes seven arguments besides `self`
(line 51) but the solver passes eight (usl.py:552-561): calling it always raises `TypeError`. -/
def gridContactForce : ForceHooks z K dim SS LS (ForceState K dim) :=
  { ForceHooks.default with gridMoments := fun _ _ _ => .error .typeError }

/-- `_solve_node_collision` (gridcontact.py:179-230): receiver and actor momentum after contact. -/
def solveNodeCollision (isRigid : Bool) (momR : Fin dim → K) (massR : K) (momA : Fin dim → K)
    (massA : K) (normal : Fin dim → K) (dist : K) : (Fin dim → K) × (Fin dim → K) :=
  if dist ≤ 1 / 10 ^ 6 then
    let vR := fun a => momR a / (massR + 1 / 10 ^ 12)
    let vA := fun a => momA a / (massA + 1 / 10 ^ 12)
    let vn := dotv (fun a => vR a - vA a) normal
    if vn < 0 then
      if isRigid then
        (fun a => (vR a - vn * normal a) * massR, fun a => vA a * massA)
      else
        let ratio := massR / (massA + 1 / 10 ^ 12)
        (fun a => (vR a - vn * normal a) * massR, fun a => (vA a + vn * normal a * ratio) * massA)
    else (momR, momA)
  else (momR, momA)

end
end Hydrax
