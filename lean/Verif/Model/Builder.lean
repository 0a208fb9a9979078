import Verif.Model.Forces

/-!
# The scene builder

Model of `hydraxmpm/common/builder.py`. The registered objects (grids, bodies, laws, obstacles and their states) are opaque
values of types `G`, `P`, `L`, `LS`, `S`, `SS`; what the builder asks of them is in `BuildEnv`. Creating a grid or a body
from raw arguments is modelled elsewhere (`GridDomain.create`, `MPState.create`); here they are added as given.
Not modelled: `summary`, solver parameters.
-/

namespace Hydrax

/-- Python list indexing, with negative indices. -/
def pyGet {α : Type*} (l : List α) (i : ℤ) : Except PyErr α :=
  let j := if i < 0 then i + l.length else i
  if j < 0 then .error .indexError
  else match l[j.toNat]? with
    | some a => .ok a
    | none => .error .indexError

/-- The classes `add_constitutive_law` distinguishes (builder.py:132-144). -/
inductive LawKind
  | newtonFluid
  | muI
  | linearElastic
  | other
deriving DecidableEq

/-- What the builder asks of the objects given to it. -/
structure BuildEnv (P L LS S SS D C : Type*) where
  /-- `isinstance(mp_state, RigidMaterialPointState)` -/
  rigid : P → Bool
  kind : L → LawKind
  /-- `law.create_state_from_density(density_stack=...)` -/
  fromDensity : L → Option D → Except PyErr LS
  /-- `sdf_logic.create_state(center_of_mass=..., ...)` -/
  createSdf : S → C → Except PyErr SS
  /-- half of the sum of `sdf_logic.get_world_aabb()`, called without the state -/
  aabbCentre : S → Except PyErr C

/-- A coupling as the builder makes it (coupling.py:24-51); `None` is `none`. -/
structure BCoupling where
  p : ℤ
  g : ℤ
  c : Option ℤ
  s : Option ℕ
  skip : Bool
deriving DecidableEq

/-- Entries of `force_logics`. -/
inductive ForceLogic (K : Type*)
  | gravity (onGrid : Bool) (gs ps : List ℤ) (fIdx : ℕ)
  | damping (onGrid : Bool) (gs ps : List ℤ) (fIdx : ℕ)
  | contact (actor receiver : ℕ) (friction : K)
  | collider (sdf : ℤ) (gs : List ℤ) (gap baseFriction : K)

/-- `SDFCollider.__init__` (sdf_collider.py:83-100). -/
def mkCollider {K : Type*} [Field K] (sdf : ℤ := 0) (gs : List ℤ := [0]) (gap : K := 1 / 10 ^ 4) (friction : K := 1) :
    ForceLogic K := .collider sdf gs gap friction

/-- A solver as `set_solver` makes it (builder.py:330-347). -/
structure BSolver (K G L S : Type*) where
  aflip : Bool
  laws : List (Option L)
  couplings : List BCoupling
  forces : List (ForceLogic K)
  sdfs : List S
  grids : List G

/-- `SimBuilder` (builder.py:56-76). A solver state is recorded by the body and scheme it was created for. -/
structure Builder (K : Type*) (dim : ℕ) (G P L LS S SS : Type*) where
  particles : List P := []
  sdfStates : List SS := []
  sdfLogics : List S := []
  forceStates : List (ForceState K dim) := []
  lawStates : List (Option LS) := []
  solverStates : List (Option (P × Bool)) := []
  grids : List G := []
  solvers : List (BSolver K G L S) := []
  couplings : List BCoupling := []
  forces : List (ForceLogic K) := []
  laws : List L := []

section
variable {K : Type*} [Field K] {dim : ℕ} {G P L LS S SS D C : Type*}

/-- `list(range(n))`. -/
def allIdx (n : ℕ) : List ℤ := (List.range n).map Int.ofNat

/-- Evaluate a generator expression inside `tuple(...)`. -/
def mapExc {α β : Type*} (f : α → Except PyErr β) : List α → Except PyErr (List β)
  | [] => .ok []
  | a :: as => andThen (f a) fun b => andThen (mapExc f as) fun bs => .ok (b :: bs)

/-- `add_grid` (builder.py:78-99; `Registry.add` 48-53): `Registry.add` appends and returns the index. -/
def Builder.addGrid (b : Builder K dim G P L LS S SS) (g : G) : Builder K dim G P L LS S SS × ℕ :=
  ({ b with grids := b.grids ++ [g] }, b.grids.length)

/-- `add_material_points` (builder.py:101-121). -/
def Builder.addPoints (b : Builder K dim G P L LS S SS) (p : P) : Builder K dim G P L LS S SS × ℕ :=
  ({ b with particles := b.particles ++ [p] }, b.particles.length)

/-- The law state that `add_constitutive_law` registers (builder.py:132-144). -/
def lawStateFor (env : BuildEnv P L LS S SS D C) (law : L) (state : Option LS) (density : Option D) :
    Except PyErr (Option LS) :=
  match env.kind law, state with
  | .newtonFluid, none => (env.fromDensity law density).map some
  | .muI, none => (env.fromDensity law density).map some
  | .linearElastic, _ => .ok none
  | _, none => .error .valueError
  | _, some s => .ok (some s)

/-- `add_constitutive_law` (builder.py:123-148). -/
def Builder.addLaw (env : BuildEnv P L LS S SS D C) (b : Builder K dim G P L LS S SS) (law : L) (state : Option LS)
    (density : Option D) : Except PyErr (Builder K dim G P L LS S SS × ℕ) :=
  andThen (lawStateFor env law state density) fun st =>
    .ok ({ b with laws := b.laws ++ [law], lawStates := b.lawStates ++ [st] }, b.laws.length)

/-- The obstacle state that `add_sdf_object` registers (builder.py:162-173). -/
def sdfStateFor (env : BuildEnv P L LS S SS D C) (logic : S) (centre : Option C) (state : Option SS) : Except PyErr SS :=
  match state with
  | some s => .ok s
  | none =>
    match centre with
    | some c => env.createSdf logic c
    | none => andThen (env.aabbCentre logic) fun c => env.createSdf logic c

/-- `add_sdf_object` (builder.py:150-184). Python's `AssertionError` is represented by `RuntimeError`. -/
def Builder.addSdf (env : BuildEnv P L LS S SS D C) (b : Builder K dim G P L LS S SS) (logic : S) (centre : Option C)
    (state : Option SS) : Except PyErr (Builder K dim G P L LS S SS × ℕ) :=
  andThen (sdfStateFor env logic centre state) fun st =>
    if b.sdfStates.length = b.sdfLogics.length then
      .ok ({ b with sdfLogics := b.sdfLogics ++ [logic], sdfStates := b.sdfStates ++ [st] }, b.sdfLogics.length)
    else .error .runtimeError

/-- `couple` (builder.py:186-235). -/
def Builder.couple (env : BuildEnv P L LS S SS D C) (b : Builder K dim G P L LS S SS) (p g c : Option ℤ) :
    Except PyErr (Builder K dim G P L LS S SS × ℕ) :=
  let p := p.getD (b.particles.length - 1)
  let g := g.getD (b.grids.length - 1)
  let c := c.getD (b.laws.length - 1)
  andThen (pyGet b.particles p) fun mp =>
    andThen (pyGet b.grids g) fun _ =>
      let skip := env.rigid mp
      let cp : BCoupling :=
        { p := p, g := g, c := if skip then none else some c
          s := if skip then none else some b.couplings.length, skip := skip }
      .ok ({ b with couplings := b.couplings ++ [cp] }, b.couplings.length)

/-- `add_gravity` (builder.py:238-264). -/
def Builder.addGravity (b : Builder K dim G P L LS S SS) (v : Fin dim → K) (gs ps : Option (List ℤ) := none)
    (onGrid : Bool := true) : Builder K dim G P L LS S SS × ℕ :=
  let gs := gs.getD (allIdx b.grids.length)
  let ps := ps.getD (allIdx b.particles.length)
  ({ b with
      forces := b.forces ++ [.gravity onGrid gs ps b.forces.length]
      forceStates := b.forceStates ++ [.gravity v] }, b.forces.length)

/-- `add_damping` (builder.py:266-292). -/
def Builder.addDamping (b : Builder K dim G P L LS S SS) (alpha : K) (gs ps : Option (List ℤ) := none)
    (onGrid : Bool := true) : Builder K dim G P L LS S SS × ℕ :=
  let gs := gs.getD (allIdx b.grids.length)
  let ps := ps.getD (allIdx b.particles.length)
  ({ b with
      forces := b.forces ++ [.damping onGrid gs ps b.forces.length]
      forceStates := b.forceStates ++ [.damping alpha] }, b.forces.length)

/-- `add_body_contact` (builder.py:397-421). -/
def Builder.addContact (b : Builder K dim G P L LS S SS) (actor receiver : ℕ) (friction : K) :
    Builder K dim G P L LS S SS × ℕ :=
  ({ b with forces := b.forces ++ [.contact actor receiver friction], forceStates := b.forceStates ++ [.none] },
    b.forces.length)

/-- `add_sdf_collider` (builder.py:423-447): `friction` is not passed on, and nothing is added to `force_states`. -/
def Builder.addCollider (b : Builder K dim G P L LS S SS) (sdf : Option ℤ := none) (gs : Option (List ℤ) := none)
    (_friction : K := 0) (gap : K := 1 / 10 ^ 4) : Builder K dim G P L LS S SS × ℕ :=
  ({ b with
      forces := b.forces ++ [mkCollider (sdf := sdf.getD (b.sdfStates.length - 1))
        (gs := gs.getD (allIdx b.grids.length)) (gap := gap)] }, b.forces.length)

/-- Solver states created by `set_solver` (builder.py:351-359). -/
def solverStatesFor (env : BuildEnv P L LS S SS D C) (particles : List P) (aflip : Bool) (cs : List BCoupling) :
    Except PyErr (List (Option (P × Bool))) :=
  mapExc (fun c => andThen (pyGet particles c.p) fun mp => .ok (if env.rigid mp then none else some (mp, aflip))) cs

/-- `set_solver` (builder.py:294-362). With an unknown scheme the local `solver` is never bound. The scheme is
a list of characters, lowered one by one. -/
def Builder.setSolver (env : BuildEnv P L LS S SS D C) (b : Builder K dim G P L LS S SS) (scheme : List Char)
    (bs fs sdfs : Option (List ℤ)) : Except PyErr (Builder K dim G P L LS S SS × ℕ) :=
  andThen (mapExc (pyGet b.couplings) (bs.getD (allIdx b.couplings.length))) fun cs =>
    andThen (mapExc (pyGet b.forces) (fs.getD (allIdx b.forces.length))) fun forces =>
      andThen (mapExc (pyGet b.sdfLogics) (sdfs.getD (allIdx b.sdfLogics.length))) fun logics =>
        andThen (mapExc (fun c => pyGet b.grids c.g) cs) fun grids =>
          andThen (mapExc (fun c : BCoupling => match c.c with
              | none => .ok none
              | some i => (pyGet b.laws i).map some) cs) fun laws =>
            let name := scheme.map Char.toLower
            if name = ['u', 's', 'l'] ∨ name = ['u', 's', 'l', '_', 'a', 'f', 'l', 'i', 'p'] then
              let aflip := decide (name = ['u', 's', 'l', '_', 'a', 'f', 'l', 'i', 'p'])
              andThen (solverStatesFor env b.particles aflip cs) fun st =>
                .ok ({ b with
                        solverStates := b.solverStates ++ st
                        solvers := b.solvers ++ [{ aflip := aflip, laws := laws, couplings := cs, forces := forces,
                                                   sdfs := logics, grids := grids }] }, b.solvers.length)
            else .error .unboundLocalError

/-- What `build` returns: the single solver, or the whole registry of solvers. -/
inductive BuiltSolver (K G L S : Type*)
  | one (s : BSolver K G L S)
  | many (l : List (BSolver K G L S))

/-- The state made by `build`: the registries as tuples. -/
structure BuiltState (K : Type*) (dim : ℕ) (P LS SS : Type*) where
  time : K
  step : ℕ
  dt : K
  materialPoints : List P
  sdfs : List SS
  laws : List (Option LS)
  solvers : List (Option (P × Bool))
  forces : List (ForceState K dim)

/-- `build` (builder.py:364-395). -/
def Builder.build (b : Builder K dim G P L LS S SS) (time : K := 0) (step : ℕ := 0) (dt : K := 1 / 10 ^ 3) :
    BuiltSolver K G L S × BuiltState K dim P LS SS :=
  (match b.solvers with
    | [s] => .one s
    | l => .many l,
   { time := time
     step := step
     dt := dt
     materialPoints := b.particles
     sdfs := b.sdfStates
     laws := b.lawStates
     solvers := b.solverStates
     forces := b.forceStates })

/-! ### What the solver looks up at run time -/

/-- Grid of a coupling: `self.grid_domains[c.g_idx]` (usl.py:239, 326, 381). -/
def BSolver.gridOf (s : BSolver K G L S) (c : BCoupling) : Except PyErr G := pyGet s.grids c.g

/-- Law of a coupling: `self.constitutive_laws[c.c_idx]` (usl.py:751, 759). -/
def BSolver.lawOf (s : BSolver K G L S) (c : BCoupling) : Except PyErr (Option L) :=
  match c.c with
  | none => .error .typeError
  | some i => pyGet s.laws i

/-- Law state of a coupling: `mechanics.constitutive_laws[c.c_idx]` (usl.py:748). -/
def Builder.lawStateOf (b : Builder K dim G P L LS S SS) (c : BCoupling) : Except PyErr (Option LS) :=
  match c.c with
  | none => .error .typeError
  | some i => pyGet b.lawStates i

/-- Solver state of a coupling: `mechanics.solvers[c.s_idx]` (usl_asflip.py). -/
def Builder.solverStateOf (b : Builder K dim G P L LS S SS) (c : BCoupling) : Except PyErr (Option (P × Bool)) :=
  match c.s with
  | none => .error .typeError
  | some i => pyGet b.solverStates i

/-- The obstacle state that goes with the `i`-th obstacle logic of the solver: `world.sdfs[i]` (usl.py:200-202, 255-256, 286-287, 347-348). -/
def Builder.sdfStateOf (b : Builder K dim G P L LS S SS) (i : ℕ) : Except PyErr SS := pyGet b.sdfStates i

end
end Hydrax
