import Verif.Model.Step

/-!
# ASFLIP solver

Model of `hydraxmpm/solvers/usl_asflip.py`.
-/

namespace Hydrax

/-- Numerical parameters of `USLAFLIP` (usl_asflip.py:93-163). `alpha_support_min/max` are stored but
never read, so they do not appear. -/
structure AflipParams (K : Type*) where
  alpha : K
  useDynamicAlpha : Bool
  betaMin : K
  betaMax : K
  useMls : Bool
  cutoff : K
  cfl : K

section
variable {K : Type*} [Field K] [LinearOrder K] {dim n w : ℕ}

/-- `dist_vec_phys` (usl_asflip.py:223). -/
def distPhys (cell : K) (c : InteractionCache K n w) (i : Fin (n * w)) : Fin 3 → K :=
  fun k => -1 * c.relDist i k * cell

/-- Body of the coupling loop of `USLAFLIP._p2g` (usl_asflip.py:210-283). -/
def aflipP2gBody (cell : K) (c : InteractionCache K n w) (Bp : Fin n → Mat3 K) (s : MPState K dim n)
    (g : GridArrays K dim) : GridArrays K dim :=
  let affine := fun i => fun r => ∑ k, Bp (c.pointId i) r k * distPhys cell c i k
  let eff := fun i => c.shapeVal i * c.cpicMask i
  let wMass := fun i => eff i * s.mass (c.pointId i)
  let wMoment := fun i a => wMass i * (s.velocity (c.pointId i) a - trunc3 dim (affine i) a)
  let wExt := fun i a => eff i * s.force (c.pointId i) a
  let wInt := fun i a =>
    (1 * s.volume (c.pointId i) * internTerm dim (s.stress (c.pointId i)) (c.shapeGrad i) a)
      * c.cpicMask i
  { mass := fun j => g.mass j + scatterAdd c.nodeHash wMass j
    moment := fun j a => g.moment j a + scatterAdd c.nodeHash (fun i => wMoment i a) j
    momentNt := g.momentNt
    force := fun j a => 0 + scatterAdd c.nodeHash (fun i => wInt i a + wExt i a) j }

/-- `jnp.clip(x, 0, 1)`. -/
def clip01 (x : K) : K := min (max x 0) 1

/-- `dynamic_alpha` of point `p` (usl_asflip.py:462-477). -/
def dynAlpha (pr : AflipParams K) (c : InteractionCache K n w) (g : GridArrays K dim)
    (s : MPState K dim n) (p : Fin n) : K :=
  if pr.useDynamicAlpha then
    let support := pointSum c (fun i => c.shapeVal i * g.mass (c.nodeHash i)) p
    let ratio := support / (s.mass p + 1 / 10 ^ 9)
    pr.alpha * clip01 ((ratio - 11 / 10) / (4 / 10))
  else pr.alpha

/-- `clamp_factor` (usl_asflip.py:485-487). -/
def clampFactor (sqrt : K → K) (cfl cell dt : K) (v : Fin dim → K) : K :=
  min 1 ((cfl * cell / dt) / (sqrt (∑ a, v a ^ 2) + 1 / 10 ^ 12))

/-- Quantities gathered from the grid in `USLAFLIP._g2p` (usl_asflip.py:316-435), MLS variant. -/
structure AflipGather (K : Type*) (dim n : ℕ) where
  pVel : Fin n → Fin dim → K
  pVelNt : Fin n → Fin dim → K
  pBp : Fin n → Mat3 K

/-- The gather with `use_mls_update=True` (usl_asflip.py:316-443). -/
def aflipGather (cut : K) (c : InteractionCache K n w) (g : GridArrays K dim) :
    AflipGather K dim n :=
  let vels := fun i a => nodeVel cut (g.mass (c.nodeHash i)) (g.moment (c.nodeHash i) a)
  let velsNt := fun i a => nodeVel cut (g.mass (c.nodeHash i)) (g.momentNt (c.nodeHash i) a)
  { pVel := fun p a => pointSum c (fun i => c.shapeVal i * vels i a) p
    pVelNt := fun p a => pointSum c (fun i => c.shapeVal i * velsNt i a) p
    pBp := fun p j k => pointSum c (fun i => -(pad3 (velsNt i) j * c.shapeGrad i k)) p }

/-- Body of the coupling loop of `USLAFLIP._g2p` with `use_mls_update=True` (usl_asflip.py:310-547): the
new body and `Bp_stack`. -/
def aflipG2pMls (sqrt : K → K) (pr : AflipParams K) (cell dt : K) (c : InteractionCache K n w)
    (g : GridArrays K dim) (s : MPState K dim n) : MPState K dim n × (Fin n → Mat3 K) :=
  let gt := aflipGather pr.cutoff c g
  let velAdj := fun p a => s.velocity p a - gt.pVel p a
  let v0 := fun p a => gt.pVelNt p a + dynAlpha pr c g s p * velAdj p a
  let pL : Fin n → Mat3 K := fun p => if dim = 2 then set22 (gt.pBp p) 0 else gt.pBp p
  let Finc : Fin n → Mat3 K := fun p => 1 - dt • pL p
  let F0 : Fin n → Mat3 K := fun p => Finc p * s.F p
  let F1 : Fin n → Mat3 K := fun p => if dim = 2 then set22 (F0 p) 1 else F0 p
  let J := fun p => (F1 p).det
  let beta0 := fun p => if J p < 1 then pr.betaMin else pr.betaMax
  let beta := fun p => if (10 : K) ^ 9 < cell then 0 else beta0 p
  ({ s with
      velocity := fun p a => v0 p a * clampFactor sqrt pr.cfl cell dt (v0 p)
      position := fun p a =>
        s.position p a + dt * (gt.pVelNt p a + pr.alpha * beta p * velAdj p a)
      volume := fun p => J p * s.volume0 p
      F := F1
      L := pL
      FStore := s.FStore.map fun fs p => Finc p * fs p
      volScalar := decide (n = 1) }, gt.pBp)

/-- Body of the coupling loop of `USLAFLIP._g2p` (usl_asflip.py:310-547). With `use_mls_update=False`
line 447 reads `c.shapefunction`, which `BodyCoupling` does not have. -/
def aflipG2pBody (sqrt : K → K) (pr : AflipParams K) (cell dt : K) (c : InteractionCache K n w)
    (g : GridArrays K dim) (s : MPState K dim n) :
    Except PyErr (MPState K dim n × (Fin n → Mat3 K)) :=
  if !pr.useMls then .error .attributeError else .ok (aflipG2pMls sqrt pr cell dt c g s)

end

section
variable {z : Sz} {K : Type*} [Field K] [LinearOrder K] [FloorRing K] {dim : ℕ} {SS LS FS : Type*}

/-- One pass of the coupling loop of `USLAFLIP._p2g` (usl_asflip.py:200-283): the solver state is read
at index `c.s_idx` (208). -/
def aflipP2gCoupling (dom : Fin z.G → GridDomain K dim) (x : Ctx z K dim SS LS FS) (c : Coupling z) :
    Except PyErr (Ctx z K dim SS LS FS) :=
  if c.skip then .ok x
  else match x.cache.interactions c.p c.g with
    | none => .error .keyError
    | some ⟨_, ic⟩ =>
      match x.world.bodies c.p with
      | .rigid _ => .error .attributeError
      | .deformable s =>
        if s.volScalar then .error .indexError
        else .ok (x.setGrid c.g (aflipP2gBody (dom c.g).cellSize ic
          (fun q => x.mech.solvers c.s q.val) s (x.cache.grids c.g)))

/-- `USLAFLIP._p2g` (usl_asflip.py:179-290). -/
def aflipP2g (sv : Solver z K dim SS LS FS) (x : Ctx z K dim SS LS FS) (dt time : K) :
    Except PyErr (Ctx z K dim SS LS FS) :=
  andThen (runHook ForceHooks.preP2g sv.forces x dt time) fun x =>
    foldE (aflipP2gCoupling sv.domains) x sv.couplings

/-- One pass of the coupling loop of `USLAFLIP._g2p` (usl_asflip.py:307-547): the solver state is
written at index `c.p_idx` (314, 545); `IndexError` if there is no such entry. -/
def aflipG2pCoupling (fn : MathFns K) (pr : AflipParams K) (dom : Fin z.G → GridDomain K dim) (dt : K)
    (x : Ctx z K dim SS LS FS) (c : Coupling z) : Except PyErr (Ctx z K dim SS LS FS) :=
  if c.skip then .ok x
  else match x.cache.interactions c.p c.g with
    | none => .error .keyError
    | some ⟨_, ic⟩ =>
      match x.world.bodies c.p with
      | .rigid _ => .error .attributeError
      | .deformable s =>
        if h : c.p.val < z.S then
          andThen (aflipG2pBody fn.sqrt pr (dom c.g).cellSize dt ic (x.cache.grids c.g) s) fun r =>
            let Bp : ℕ → Mat3 K := fun q => if hq : q < z.np c.p then r.2 ⟨q, hq⟩ else 0
            let solvers := Function.update x.mech.solvers ⟨c.p.val, h⟩ Bp
            .ok { x.setBody c.p (.deformable r.1) with mech := { x.mech with solvers := solvers } }
        else .error .indexError

/-- `USLAFLIP._g2p` (usl_asflip.py:292-560). -/
def aflipG2p (fn : MathFns K) (pr : AflipParams K) (sv : Solver z K dim SS LS FS)
    (x : Ctx z K dim SS LS FS) (dt _time : K) : Except PyErr (Ctx z K dim SS LS FS) :=
  foldE (aflipG2pCoupling fn pr sv.domains dt) x sv.couplings

/-- `USLAFLIP.__call__`, inherited from `USLSolver`. -/
def aflipCall (fn : MathFns K) (pr : AflipParams K) (sv : Solver z K dim SS LS FS)
    (st : SimState z K dim SS LS FS) : Except PyErr (SimState z K dim SS LS FS) :=
  callWith fn sv (aflipP2g sv) (aflipG2p fn pr sv) st

end
end Hydrax
