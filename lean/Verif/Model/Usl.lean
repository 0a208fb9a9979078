import Verif.Model.Mapping
import Verif.Model.MaterialPoints

/-!
# Transfers of the USL solver for one coupling

Model of the loop bodies of `hydraxmpm/solvers/usl.py`. The loops over couplings are in
`Verif.Model.Step`.
-/

namespace Hydrax

section
variable {K : Type*} [Field K] [LinearOrder K] {dim n w : ℕ}

/-- `v[:dim]` of a 3-vector. -/
def trunc3 (dim : ℕ) (v : Fin 3 → K) : Fin dim → K :=
  fun a => if h : a.val < 3 then v ⟨a.val, h⟩ else 0

/-- `zeros((num_points, ...)).at[point_ids].add(vals)`. -/
def pointSum (c : InteractionCache K n w) (vals : Fin (n * w) → K) (p : Fin n) : K :=
  ∑ i with c.pointId i = p, vals i

/-- `.at[2, 2].set(v)`. -/
def set22 (M : Mat3 K) (v : K) : Mat3 K := fun i j => if i = 2 ∧ j = 2 then v else M i j

/-- Internal force term `(stress @ grad)[:dim]` of one interaction (usl.py:477-480). -/
def internTerm (dim : ℕ) (σ : Mat3 K) (grad : Fin 3 → K) : Fin dim → K :=
  trunc3 dim (fun a => ∑ b, σ a b * grad b)

/-- Body of the coupling loop of `_p2g` (usl.py:448-509). Mass and momentum are added to the grid;
the force array starts again from zeros (495-499). -/
def p2gBody (c : InteractionCache K n w) (s : MPState K dim n) (g : GridArrays K dim) :
    GridArrays K dim :=
  let eff := fun i => c.shapeVal i * c.cpicMask i
  let wMass := fun i => eff i * s.mass (c.pointId i)
  let wMoment := fun i a => wMass i * s.velocity (c.pointId i) a
  let wExt := fun i a => eff i * s.force (c.pointId i) a
  let wInt := fun i a =>
    (1 * s.volume (c.pointId i) * internTerm dim (s.stress (c.pointId i)) (c.shapeGrad i) a)
      * c.cpicMask i
  { mass := fun j => g.mass j + scatterAdd c.nodeHash wMass j
    moment := fun j a => g.moment j a + scatterAdd c.nodeHash (fun i => wMoment i a) j
    momentNt := g.momentNt
    force := fun j a => 0 + scatterAdd c.nodeHash (fun i => wInt i a + wExt i a) j }

/-- Body of the coupling loop of `_integrate_grid` (usl.py:540-547). -/
def integrateBody (dt : K) (g : GridArrays K dim) : GridArrays K dim :=
  { g with momentNt := fun j a => g.moment j a + g.force j a * dt }

/-- Nodal velocity with mass cutoff: `where(m > cut, mom / where(m > cut, m, 1), 0)`
(usl.py:600-609). -/
def nodeVel (cut m mom : K) : K := if m > cut then mom / (if m > cut then m else 1) else 0

/-- The cutoff of `USLSolver._g2p` (usl.py:600). -/
def uslCutoff : K := 1 / 10 ^ 12

/-- CPIC ghost blend (usl.py:651-656); `none` when there is no SDF. -/
def ghostBlend (c : InteractionCache K n w) (ghost : Option (Fin n → Fin dim → K))
    (v : Fin (n * w) → Fin dim → K) : Fin (n * w) → Fin dim → K :=
  match ghost with
  | none => v
  | some gh => fun i a => v i a * c.cpicMask i + gh (c.pointId i) a * (1 - c.cpicMask i)

/-- Body of the coupling loop of `_g2p` (usl.py:587-729). -/
def g2pBody (alpha dt : K) (c : InteractionCache K n w) (ghost : Option (Fin n → Fin dim → K))
    (g : GridArrays K dim) (s : MPState K dim n) : MPState K dim n :=
  let vels := ghostBlend c ghost fun i a =>
    nodeVel uslCutoff (g.mass (c.nodeHash i)) (g.moment (c.nodeHash i) a)
  let velsNt := ghostBlend c ghost fun i a =>
    nodeVel uslCutoff (g.mass (c.nodeHash i)) (g.momentNt (c.nodeHash i) a)
  let pDelta := fun p a => pointSum c (fun i => c.shapeVal i * (velsNt i a - vels i a)) p
  let pVelNt := fun p a => pointSum c (fun i => c.shapeVal i * velsNt i a) p
  let pL0 : Fin n → Mat3 K := fun p j k =>
    pointSum c (fun i => c.shapeGrad i j * -(pad3 (velsNt i) k)) p
  let pL : Fin n → Mat3 K := fun p => if dim = 2 then set22 (pL0 p) 0 else pL0 p
  let F0 : Fin n → Mat3 K := fun p => (1 - dt • pL p) * s.F p
  let F1 : Fin n → Mat3 K := fun p => if dim = 2 then set22 (F0 p) 1 else F0 p
  { s with
    velocity := fun p a => (1 - alpha) * pVelNt p a + alpha * (s.velocity p a + pDelta p a)
    position := fun p a => s.position p a + pVelNt p a * dt
    volume := fun p => (F1 p).det * s.volume0 p
    F := F1
    L := pL
    volScalar := decide (n = 1) }

/-- `L_stack.at[:].set(0)`, `force_stack.at[:].set(0)` (usl.py:216-222). -/
def resetBody (s : MPState K dim n) : MPState K dim n :=
  { s with L := fun _ => 0, force := fun _ _ => 0 }

/-- Loop body of `Gravity.apply_grid_forces` (gravity.py:110-120). -/
def gravityGrid (grav : Fin dim → K) (g : GridArrays K dim) : GridArrays K dim :=
  { g with force := fun j a => g.force j a + g.mass j * grav a }

/-- Cundall damping of one force component (damping.py:83-92, 121-130). -/
def dampForce (alpha f v : K) : K := f + -alpha * |f| * sgn v

/-- Loop body of `Damping.apply_grid_forces` (damping.py:81-98). -/
def dampingGrid (alpha : K) (g : GridArrays K dim) : GridArrays K dim :=
  { g with force := fun j a => dampForce alpha (g.force j a) (g.moment j a / (g.mass j + 1 / 10 ^ 22)) }

end
end Hydrax
