import Verif.Model.Usl
import Mathlib.Logic.Function.Basic

/-!
# One call of a solver on the whole scene

Model of `USLSolver.__call__` and of the methods it calls (`hydraxmpm/solvers/usl.py`), for any number
of bodies, grids, couplings, constitutive laws, forces and SDF obstacles. Indices are assumed to be in
range (Python raises `IndexError` otherwise); array shapes are static, as under `jit`.
-/

namespace Hydrax

/-- Sizes of the tuples of a scene: bodies, grids, laws, solver states, SDFs, points per body. -/
structure Sz where
  P : ℕ
  G : ℕ
  C : ℕ
  S : ℕ
  D : ℕ
  np : Fin P → ℕ

/-- `BodyCoupling` (coupling.py:24-51). -/
structure Coupling (z : Sz) where
  ker : Kernel
  p : Fin z.P
  g : Fin z.G
  c : Fin z.C
  s : Fin z.S
  skip : Bool

/-- `ParticleGeometry` / `NodeGeometry` (simstate.py:101-116), indexed by `ι`. -/
structure Geom (K : Type*) (dim : ℕ) (ι : Type*) where
  dists : ι → K
  normals : ι → Fin dim → K
  wallVels : ι → Fin dim → K
  friction : ι → K

/-- `WorldState` (simstate.py:41-54). `SS` is the type of SDF states. -/
structure World (z : Sz) (K : Type*) (dim : ℕ) (SS : Type*) where
  bodies : (p : Fin z.P) → Body K dim (z.np p)
  sdfs : Fin z.D → SS

/-- `MechanicsState` (simstate.py:57-74). `LS`, `FS` are the types of law and force states; a solver
state is the `Bp_stack` of ASFLIP. -/
structure Mech (z : Sz) (K LS FS : Type*) where
  laws : Fin z.C → LS
  solvers : Fin z.S → ℕ → Mat3 K
  forces : List FS

/-- The dictionary `interactions`, keyed by `(p_idx, g_idx)` (simstate.py:121-124). -/
abbrev Inter (z : Sz) (K : Type*) (dim : ℕ) :=
  (p : Fin z.P) → Fin z.G → Option (Σ ker : Kernel, InteractionCache K (z.np p) (windowSize ker dim))

/-- `SimCache` (simstate.py:119-130). -/
structure Cache (z : Sz) (K : Type*) (dim : ℕ) where
  interactions : Inter z K dim
  grids : Fin z.G → GridArrays K dim
  mpGeoms : (p : Fin z.P) → Fin z.D → Geom K dim (Fin (z.np p))
  nodeGeoms : Fin z.G → Fin z.D → Geom K dim ℕ

/-- The triple `world, mechanics, sim_cache` that is passed around. -/
structure Ctx (z : Sz) (K : Type*) (dim : ℕ) (SS LS FS : Type*) where
  world : World z K dim SS
  mech : Mech z K LS FS
  cache : Cache z K dim

/-- `SimState` (simstate.py:76-97). -/
structure SimState (z : Sz) (K : Type*) (dim : ℕ) (SS LS FS : Type*) where
  world : World z K dim SS
  mech : Mech z K LS FS
  time : K
  step : ℕ
  dt : K

/-- The methods of an SDF object that the solver calls (sdfobject.py). -/
structure SdfLogic (K : Type*) (dim : ℕ) (SS : Type*) where
  updateKin : SS → K → SS
  dist : SS → (Fin dim → K) → K
  normal : SS → (Fin dim → K) → Fin dim → K
  velocity : SS → (Fin dim → K) → K → Fin dim → K
  friction : SS → (Fin dim → K) → K

/-- A constitutive law: `update` and `requires_F_reset` (constitutive_law.py:17-18). -/
structure Law (K : Type*) (dim : ℕ) (LS : Type*) where
  update : {n : ℕ} → MPState K dim n → LS → K → Except PyErr (MPState K dim n × LS)
  requiresFReset : Bool

/-- The four hooks of a `Force` (force.py:39-107). -/
structure ForceHooks (z : Sz) (K : Type*) (dim : ℕ) (SS LS FS : Type*) where
  kinematics : World z K dim SS → Mech z K LS FS → K → K →
    Except PyErr (World z K dim SS × Mech z K LS FS)
  preP2g : Ctx z K dim SS LS FS → K → K → Except PyErr (Ctx z K dim SS LS FS)
  gridForces : Ctx z K dim SS LS FS → K → K → Except PyErr (Ctx z K dim SS LS FS)
  gridMoments : Ctx z K dim SS LS FS → K → K → Except PyErr (Ctx z K dim SS LS FS)

/-- The hooks of the base class: everything is passed through (force.py:53, 69, 88, 107). -/
def ForceHooks.default {z : Sz} {K : Type*} {dim : ℕ} {SS LS FS : Type*} :
    ForceHooks z K dim SS LS FS :=
  { kinematics := fun w m _ _ => .ok (w, m)
    preP2g := fun x _ _ => .ok x
    gridForces := fun x _ _ => .ok x
    gridMoments := fun x _ _ => .ok x }

/-- Static part of `USLSolver` (usl.py:55-107). -/
structure Solver (z : Sz) (K : Type*) (dim : ℕ) (SS LS FS : Type*) where
  alpha : K
  domains : Fin z.G → GridDomain K dim
  couplings : List (Coupling z)
  laws : Fin z.C → Law K dim LS
  forces : List (ForceHooks z K dim SS LS FS)
  sdfs : Fin z.D → SdfLogic K dim SS
  sharpness : K

/-- A Python `for` loop whose body may raise. -/
def foldE {σ α : Type*} (f : σ → α → Except PyErr σ) : σ → List α → Except PyErr σ
  | s, [] => .ok s
  | s, a :: l =>
    match f s a with
    | .error e => .error e
    | .ok s' => foldE f s' l

/-- Sequencing of steps that may raise. -/
def andThen {α β : Type*} (x : Except PyErr α) (f : α → Except PyErr β) : Except PyErr β :=
  match x with
  | .error e => .error e
  | .ok a => f a

/-- `jnp.argmin` of a non-empty vector: the first index of the minimum. -/
def argmin {K : Type*} [LT K] [DecidableLT K] : (d : ℕ) → (Fin (d + 1) → K) → Fin (d + 1)
  | 0, _ => 0
  | d + 1, f =>
    let r := argmin d (fun i => f i.castSucc)
    if f (Fin.last (d + 1)) < f r.castSucc then Fin.last (d + 1) else r.castSucc

section
variable {z : Sz} {K : Type*} [Field K] [LinearOrder K] [FloorRing K] {dim : ℕ} {SS LS FS : Type*}

/-- Replace one body. -/
def World.setBody (w : World z K dim SS) (p : Fin z.P) (b : Body K dim (z.np p)) :
    World z K dim SS := { w with bodies := Function.update w.bodies p b }

/-- `_kinematic_update` (usl.py:191-207). -/
def kinematicUpdate (sv : Solver z K dim SS LS FS) (w : World z K dim SS) (m : Mech z K LS FS)
    (dt time : K) : Except PyErr (World z K dim SS × Mech z K LS FS) :=
  andThen (foldE (fun (wm : World z K dim SS × Mech z K LS FS) f =>
      f.kinematics wm.1 wm.2 dt time) (w, m) sv.forces)
    fun wm => .ok ({ wm.1 with sdfs := fun i => (sv.sdfs i).updateKin (wm.1.sdfs i) dt }, wm.2)

/-- `_reset_material_points` (usl.py:209-230): every deformable body named in a coupling. -/
def resetMaterialPoints (sv : Solver z K dim SS LS FS) (w : World z K dim SS) : World z K dim SS :=
  { w with bodies := fun p =>
      if sv.couplings.any (fun c => decide (c.p = p)) then
        match w.bodies p with
        | .deformable s => .deformable (resetBody s)
        | .rigid s => .rigid s
      else w.bodies p }

/-- Assign to one key of the dictionary. -/
def Inter.set (d : Inter z K dim) (p : Fin z.P) (g : Fin z.G)
    (v : Option (Σ ker : Kernel, InteractionCache K (z.np p) (windowSize ker dim))) : Inter z K dim :=
  Function.update d p (Function.update (d p) g v)

/-- One pass of the loop of `_compute_connectivity` (usl.py:235-242). -/
def connStep (sv : Solver z K dim SS LS FS) (w : World z K dim SS) (d : Inter z K dim)
    (c : Coupling z) : Inter z K dim :=
  d.set c.p c.g (some ⟨c.ker, compute c.ker (sv.domains c.g) (w.bodies c.p).position⟩)

/-- `_compute_connectivity` (usl.py:232-243): later couplings overwrite earlier ones. -/
def computeConnectivity (sv : Solver z K dim SS LS FS) (w : World z K dim SS) : Inter z K dim :=
  sv.couplings.foldl (connStep sv w) (fun _ _ => none)

/-- Geometry of SDF `d` at a family of query points, distances reduced by `shift`
(usl.py:258-268, 289-305). -/
def sdfGeom {ι : Type*} (sv : Solver z K dim SS LS FS) (w : World z K dim SS) (dt shift : K)
    (d : Fin z.D) (pts : ι → Fin dim → K) : Geom K dim ι :=
  { dists := fun i => (sv.sdfs d).dist (w.sdfs d) (pts i) - shift
    normals := fun i => (sv.sdfs d).normal (w.sdfs d) (pts i)
    wallVels := fun i => (sv.sdfs d).velocity (w.sdfs d) (pts i) dt
    friction := fun i => (sv.sdfs d).friction (w.sdfs d) (pts i) }

/-- `maximum` over the SDFs of `sigmoid(-dist * sharpness)`, starting from 0
(usl.py:253-272, 284-309, 345-355). -/
def unionMask (fn : MathFns K) (sharp : K) (dists : Fin z.D → K) : K :=
  (List.finRange z.D).foldl (fun acc d => max acc (fn.sigmoid (-dists d * sharp))) 0

/-- `compatible_mask` (usl.py:388-407) of one interaction: computed, then not used. -/
def compatibleMask (mpIn nodeIn midIn : K) : K := 1 - (1 - mpIn) * max nodeIn midIn

/-- The mask written back by `_sdf_correction_connectivity`: `ones_like` of the computed one
(usl.py:388-417). -/
def withMask {n w : ℕ} (ic : InteractionCache K n w) (compatible : ℕ → K) : InteractionCache K n w :=
  { ic with cpicMask := fun i => (fun _ : K => 1) (compatible i.val) }

/-- One pass of the loop of `_sdf_correction_connectivity` (usl.py:373-418). -/
def maskStep (compatible : (p : Fin z.P) → (g : Fin z.G) → ℕ → K) (d : Inter z K dim) (c : Coupling z) :
    Inter z K dim :=
  d.set c.p c.g ((d c.p c.g).map fun ic => ⟨ic.1, withMask ic.2 (compatible c.p c.g)⟩)

/-- `_sdf_correction_connectivity` (usl.py:361-420). -/
def sdfCorrection (sv : Solver z K dim SS LS FS) (inter : Inter z K dim)
    (compatible : (p : Fin z.P) → (g : Fin z.G) → ℕ → K) : Inter z K dim :=
  if z.D = 0 then inter else sv.couplings.foldl (maskStep compatible) inter

/-- Particle, node and midpoint masks combined, for interaction `i` of `(p, g)` (usl.py:255-407). -/
def compatibleOf (fn : MathFns K) (sv : Solver z K dim SS LS FS) (w : World z K dim SS) (dt : K)
    (inter : Inter z K dim) (p : Fin z.P) (g : Fin z.G) (i : ℕ) : K :=
  match inter p g with
  | none => 1
  | some ⟨ker, ic⟩ =>
    if h : i < z.np p * windowSize ker dim then
      let q := ic.pointId ⟨i, h⟩
      let xp := (w.bodies p).position q
      let xn := (sv.domains g).positionStack (ic.nodeHash ⟨i, h⟩)
      let mid := fun a => 1 / 2 * (xn a + xp a)
      compatibleMask
        (unionMask fn sv.sharpness fun d => (sdfGeom sv w dt 0 d (fun _ : Unit => xp)).dists ())
        (unionMask fn sv.sharpness fun d =>
          (sdfGeom sv w dt ((sv.domains g).cellSize * 1) d (fun _ : Unit => xn)).dists ())
        (unionMask fn sv.sharpness fun d => (sdfGeom sv w dt 0 d (fun _ : Unit => mid)).dists ())
    else 1

/-- The cache after connectivity, SDF precomputation and correction (usl.py:133-162). -/
def buildCache (fn : MathFns K) (sv : Solver z K dim SS LS FS) (w : World z K dim SS) (dt : K) :
    Cache z K dim :=
  let inter := computeConnectivity sv w
  { interactions := sdfCorrection sv inter (compatibleOf fn sv w dt inter)
    grids := fun _ => GridArrays.new
    mpGeoms := fun p d => sdfGeom sv w dt 0 d (w.bodies p).position
    nodeGeoms := fun g d =>
      sdfGeom sv w dt ((sv.domains g).cellSize * 1) d (sv.domains g).positionStack }

/-- Run one hook of every force. -/
def runHook (hook : ForceHooks z K dim SS LS FS → Ctx z K dim SS LS FS → K → K →
      Except PyErr (Ctx z K dim SS LS FS))
    (fs : List (ForceHooks z K dim SS LS FS)) (x : Ctx z K dim SS LS FS) (dt time : K) :
    Except PyErr (Ctx z K dim SS LS FS) :=
  foldE (fun x f => hook f x dt time) x fs

/-- Replace one grid. -/
def Ctx.setGrid (x : Ctx z K dim SS LS FS) (g : Fin z.G) (a : GridArrays K dim) :
    Ctx z K dim SS LS FS :=
  { x with cache := { x.cache with grids := Function.update x.cache.grids g a } }

/-- Replace one body of the context. -/
def Ctx.setBody (x : Ctx z K dim SS LS FS) (p : Fin z.P) (b : Body K dim (z.np p)) :
    Ctx z K dim SS LS FS :=
  { x with world := x.world.setBody p b }

/-- One pass of the coupling loop of `_p2g` (usl.py:440-509). Gathering from a 0-d `volume_stack`
raises `IndexError`; a rigid body has no `volume_stack`. -/
def p2gCoupling (x : Ctx z K dim SS LS FS) (c : Coupling z) : Except PyErr (Ctx z K dim SS LS FS) :=
  if c.skip then .ok x
  else match x.cache.interactions c.p c.g with
    | none => .error .keyError
    | some ⟨_, ic⟩ =>
      match x.world.bodies c.p with
      | .rigid _ => .error .attributeError
      | .deformable s =>
        if s.volScalar then .error .indexError
        else .ok (x.setGrid c.g (p2gBody ic s (x.cache.grids c.g)))

/-- `USLSolver._p2g` (usl.py:422-516). -/
def uslP2g (sv : Solver z K dim SS LS FS) (x : Ctx z K dim SS LS FS) (dt time : K) :
    Except PyErr (Ctx z K dim SS LS FS) :=
  andThen (runHook ForceHooks.preP2g sv.forces x dt time) fun x => foldE p2gCoupling x sv.couplings

/-- One pass of the coupling loop of `_integrate_grid` (usl.py:536-547). -/
def integrateCoupling (dt : K) (x : Ctx z K dim SS LS FS) (c : Coupling z) :
    Except PyErr (Ctx z K dim SS LS FS) :=
  if c.skip then .ok x else .ok (x.setGrid c.g (integrateBody dt (x.cache.grids c.g)))

/-- `_integrate_grid` (usl.py:518-563). -/
def integrateGrid (sv : Solver z K dim SS LS FS) (x : Ctx z K dim SS LS FS) (dt time : K) :
    Except PyErr (Ctx z K dim SS LS FS) :=
  andThen (runHook ForceHooks.gridForces sv.forces x dt time) fun x =>
    andThen (foldE (integrateCoupling dt) x sv.couplings) fun x =>
      runHook ForceHooks.gridMoments sv.forces x dt time

/-- Ghost velocity of every point (usl.py:613-647), `none` without SDFs. -/
def ghostVelocity (x : Ctx z K dim SS LS FS) (p : Fin z.P) (s : MPState K dim (z.np p)) :
    Option (Fin (z.np p) → Fin dim → K) :=
  if h : z.D = 0 then none
  else some fun q a =>
    let best : Fin z.D := (argmin (z.D - 1) fun i =>
      (x.cache.mpGeoms p (i.cast (by omega))).dists q).cast (by omega)
    let geo := x.cache.mpGeoms p best
    let vRel := fun b => s.velocity q b - geo.wallVels q b
    let vDotN := ∑ b, vRel b * geo.normals q b
    geo.wallVels q a + (vRel a - min 0 vDotN * geo.normals q a)

/-- One pass of the coupling loop of `_g2p` (usl.py:579-729). If there are SDFs, a body of one point makes `dists.squeeze()`
(619) a scalar, so that the indices of `take_along_axis` (635-640) have one axis less than the array: `ValueError`. -/
def g2pCoupling (alpha dt : K) (x : Ctx z K dim SS LS FS) (c : Coupling z) :
    Except PyErr (Ctx z K dim SS LS FS) :=
  if c.skip then .ok x
  else match x.cache.interactions c.p c.g with
    | none => .error .keyError
    | some ⟨_, ic⟩ =>
      match x.world.bodies c.p with
      | .rigid _ => .error .attributeError
      | .deformable s =>
        if z.D ≠ 0 ∧ z.np c.p = 1 then .error .valueError
        else .ok (x.setBody c.p (.deformable
          (g2pBody alpha dt ic (ghostVelocity x c.p s) (x.cache.grids c.g) s)))

/-- `USLSolver._g2p` (usl.py:565-737). -/
def uslG2p (sv : Solver z K dim SS LS FS) (x : Ctx z K dim SS LS FS) (dt _time : K) :
    Except PyErr (Ctx z K dim SS LS FS) :=
  foldE (g2pCoupling sv.alpha dt) x sv.couplings

/-- `compute_cbar` (constitutive_law.py:40-49). -/
def cbar (fn : MathFns K) (dim : ℕ) (F : Mat3 K) : Mat3 K :=
  if dim = 2 then Matrix.diagonal ![fn.sqrt F.det, fn.sqrt F.det, 0]
  else fn.cbrt F.det • (1 : Mat3 K)

/-- `remove_accumulated_shear` (constitutive_law.py:21-62). -/
def removeShear (fn : MathFns K) (reset : Bool) {n : ℕ} (s : MPState K dim n) : MPState K dim n :=
  if reset then
    { s with F := fun p => cbar fn dim (s.F p), FStore := s.FStore.map fun _ => s.F }
  else s

/-- One pass of the coupling loop of `_constitutive_update` (usl.py:743-764). A rigid body has none of
the arrays a law reads. -/
def lawCoupling (fn : MathFns K) (laws : Fin z.C → Law K dim LS) (dt : K)
    (x : Ctx z K dim SS LS FS) (c : Coupling z) : Except PyErr (Ctx z K dim SS LS FS) :=
  if c.skip then .ok x
  else match x.world.bodies c.p with
    | .rigid _ => .error .attributeError
    | .deformable s =>
      andThen ((laws c.c).update s (x.mech.laws c.c) dt) fun r =>
        .ok { x.setBody c.p (.deformable (removeShear fn (laws c.c).requiresFReset r.1)) with
              mech := { x.mech with laws := Function.update x.mech.laws c.c r.2 } }

/-- `_constitutive_update` (usl.py:739-772). -/
def constitutiveUpdate (fn : MathFns K) (sv : Solver z K dim SS LS FS) (x : Ctx z K dim SS LS FS)
    (dt _time : K) : Except PyErr (Ctx z K dim SS LS FS) :=
  foldE (lawCoupling fn sv.laws dt) x sv.couplings

/-- `__call__` (usl.py:113-189) with the transfer methods as parameters, since `USLAFLIP` inherits
everything else. -/
def callWith (fn : MathFns K) (sv : Solver z K dim SS LS FS)
    (p2g g2p : Ctx z K dim SS LS FS → K → K → Except PyErr (Ctx z K dim SS LS FS))
    (st : SimState z K dim SS LS FS) : Except PyErr (SimState z K dim SS LS FS) :=
  andThen (kinematicUpdate sv st.world st.mech st.dt st.time) fun wm =>
  let w := resetMaterialPoints sv wm.1
  let x : Ctx z K dim SS LS FS := { world := w, mech := wm.2, cache := buildCache fn sv w st.dt }
  andThen (p2g x st.dt st.time) fun x =>
  andThen (integrateGrid sv x st.dt st.time) fun x =>
  andThen (g2p x st.dt st.time) fun x =>
  andThen (constitutiveUpdate fn sv x st.dt st.time) fun x =>
  .ok { st with world := x.world, mech := x.mech, step := st.step + 1, time := st.time + st.dt }

/-- `USLSolver.__call__`. -/
def uslCall (fn : MathFns K) (sv : Solver z K dim SS LS FS) (st : SimState z K dim SS LS FS) :
    Except PyErr (SimState z K dim SS LS FS) :=
  callWith fn sv (uslP2g sv) (uslG2p sv) st

/-- `n` successive calls. -/
def runSteps {σ : Type*} (call : σ → Except PyErr σ) : ℕ → σ → Except PyErr σ
  | 0, st => .ok st
  | n + 1, st => andThen (runSteps call n st) call

end
end Hydrax
