import Verif.Lemmas.SceneGrid
import Verif.Lemmas.ExampleScene

/-!
# Property C23: bodies sharing a grid
-/

set_option linter.unusedSectionVars false

namespace Hydrax
open Spec

section
variable {z : Sz} {K : Type*} [Field K] [LinearOrder K] [IsStrictOrderedRing K] [FloorRing K] {dim : ℕ}
  {SS LS : Type*}

/-- The nodal contribution of one coupling. -/
structure Spec.Contribution (K : Type*) (dim : ℕ) where
  mass : ℕ → K
  moment : ℕ → Fin dim → K
  force : ℕ → Fin dim → K

/-- What the users of a shared grid see after the transfer: mass and momentum are the sums over the active couplings of
the grid. -/
structure Spec.AddsUp (cs : List (Coupling z)) (k : Coupling z → Contribution K dim) (g : Fin z.G)
    (gr gr' : GridArrays K dim) : Prop where
  mass : ∀ j, gr'.mass j = gr.mass j + ((cs.filter fun c => !c.skip && decide (c.g = g)).map fun c => (k c).mass j).sum
  moment : ∀ j a, gr'.moment j a =
    gr.moment j a + ((cs.filter fun c => !c.skip && decide (c.g = g)).map fun c => (k c).moment j a).sum

/-- Contribution of a body in the USL transfer. -/
def uslContribution (dom : Fin z.G → GridDomain K dim) (w : World z K dim SS) (c : Coupling z) : Contribution K dim :=
  match w.bodies c.p with
  | .rigid _ => ⟨fun _ => 0, fun _ _ => 0, fun _ _ => 0⟩
  | .deformable s =>
    let r := p2gBody (compute c.ker (dom c.g) s.position) s GridArrays.new
    ⟨r.mass, r.moment, r.force⟩

/-- Contribution of a body in the AFLIP transfer. -/
def aflipContribution (dom : Fin z.G → GridDomain K dim) (w : World z K dim SS) (B : Fin z.S → ℕ → Mat3 K)
    (c : Coupling z) : Contribution K dim :=
  match w.bodies c.p with
  | .rigid _ => ⟨fun _ => 0, fun _ _ => 0, fun _ _ => 0⟩
  | .deformable s =>
    let r := aflipP2gBody (dom c.g).cellSize (compute c.ker (dom c.g) s.position) (fun q => B c.s q.val) s GridArrays.new
    ⟨r.mass, r.moment, r.force⟩

/-- A transfer loop body that adds the contribution of a coupling to its grid, but assigns the force. -/
def Deposits (step : Ctx z K dim SS LS (ForceState K dim) → Coupling z → Except PyErr (Ctx z K dim SS LS (ForceState K dim)))
    (x : Ctx z K dim SS LS (ForceState K dim)) (k : Coupling z → Contribution K dim) (c : Coupling z) : Prop :=
  (∃ e, ∀ gr : Fin z.G → GridArrays K dim,
      step { x with cache := { x.cache with grids := gr } } c = .error e) ∨
  ∀ gr : Fin z.G → GridArrays K dim, step { x with cache := { x.cache with grids := gr } } c = .ok { x with
      cache := { x.cache with
        grids := if c.skip then gr else Function.update gr c.g
          { mass := fun j => (gr c.g).mass j + (k c).mass j
            moment := fun j a => (gr c.g).moment j a + (k c).moment j a
            momentNt := (gr c.g).momentNt
            force := (k c).force } } }

theorem deposits_fold {step : Ctx z K dim SS LS (ForceState K dim) → Coupling z →
      Except PyErr (Ctx z K dim SS LS (ForceState K dim))}
    {x : Ctx z K dim SS LS (ForceState K dim)} {k : Coupling z → Contribution K dim} (cs : List (Coupling z))
    (hd : ∀ c ∈ cs, Deposits step x k c) (gr : Fin z.G → GridArrays K dim) :
    ((∃ c ∈ cs, ∃ e, ∀ gr : Fin z.G → GridArrays K dim,
      step { x with cache := { x.cache with grids := gr } } c = .error e) ∧
      ∃ e, foldE step { x with cache := { x.cache with grids := gr } } cs = .error e) ∨
    ((∀ c ∈ cs, ¬∃ e, ∀ gr : Fin z.G → GridArrays K dim,
      step { x with cache := { x.cache with grids := gr } } c = .error e) ∧
      ∃ gr', foldE step { x with cache := { x.cache with grids := gr } } cs =
        .ok { x with cache := { x.cache with grids := gr' } } ∧
      ∀ g, AddsUp cs k g (gr g) (gr' g) ∧
        (gr' g).force = (((cs.filter fun c => !c.skip && decide (c.g = g)).getLast?).map fun c => (k c).force).getD
          (gr g).force) := by
  induction cs generalizing gr with
  | nil =>
    right
    exact ⟨by simp, gr, rfl, fun g => ⟨⟨fun _ => by simp, fun _ _ => by simp⟩, by simp⟩⟩
  | cons c cs ih =>
    rcases hd c (by simp) with ⟨e, he⟩ | hok
    · left
      refine ⟨⟨c, by simp, e, he⟩, e, ?_⟩
      simp [foldE, he gr]
    · rcases ih (fun b hb => hd b (by simp [hb])) (if c.skip then gr else Function.update gr c.g
          { mass := fun j => (gr c.g).mass j + (k c).mass j
            moment := fun j a => (gr c.g).moment j a + (k c).moment j a
            momentNt := (gr c.g).momentNt
            force := (k c).force }) with ⟨⟨b, hb, hbe⟩, e, he⟩ | ⟨hne, gr', hgr, hadd⟩
      · left
        refine ⟨⟨b, by simp [hb], hbe⟩, e, ?_⟩
        simp only [foldE, hok gr]
        exact he
      · right
        refine ⟨?_, gr', ?_, fun g => ?_⟩
        · intro b hb
          rcases List.mem_cons.mp hb with rfl | hb
          · rintro ⟨e, he⟩
            have := he gr
            rw [hok gr] at this
            exact absurd this (by simp)
          · exact hne b hb
        · simp only [foldE, hok gr]
          exact hgr
        · obtain ⟨⟨a1, a2⟩, a3⟩ := hadd g
          cases hs : c.skip with
          | true =>
            simp only [hs, if_true] at a1 a2 a3
            refine ⟨⟨fun j => ?_, fun j a => ?_⟩, ?_⟩
            · rw [a1]; simp [hs]
            · rw [a2]; simp [hs]
            · rw [a3]; simp [hs]
          | false =>
            simp only [hs, Bool.false_eq_true, if_false] at a1 a2 a3
            by_cases hg : c.g = g
            · subst hg
              simp only [Function.update_self] at a1 a2 a3
              refine ⟨⟨fun j => ?_, fun j a => ?_⟩, ?_⟩
              · rw [a1]; simp [hs]; ring
              · rw [a2]; simp [hs]; ring
              · rw [a3]
                simp only [hs, Bool.not_false, decide_true, Bool.and_self, List.filter_cons_of_pos, List.getLast?_cons]
                cases (List.filter (fun b : Coupling z => !b.skip && decide (b.g = c.g)) cs).getLast? <;> simp
            · simp only [Function.update_of_ne (Ne.symm hg)] at a1 a2 a3
              refine ⟨⟨fun j => ?_, fun j a => ?_⟩, ?_⟩
              · rw [a1]; simp [hs, hg]
              · rw [a2]; simp [hs, hg]
              · rw [a3]; simp [hs, hg]

theorem p2g_deposits (dom : Fin z.G → GridDomain K dim) (x : Ctx z K dim SS LS (ForceState K dim)) (c : Coupling z)
    (hl : x.cache.interactions c.p c.g = some ⟨c.ker, compute c.ker (dom c.g) (x.world.bodies c.p).position⟩) :
    Deposits p2gCoupling x (uslContribution dom x.world) c := by
  unfold Deposits p2gCoupling
  cases hs : c.skip with
  | true => right; intro gr; simp
  | false =>
    simp only [Bool.false_eq_true, if_false, hl]
    have hk : uslContribution dom x.world c = match x.world.bodies c.p with
      | .rigid _ => ⟨fun _ => 0, fun _ _ => 0, fun _ _ => 0⟩
      | .deformable s =>
        let r := p2gBody (compute c.ker (dom c.g) s.position) s GridArrays.new
        ⟨r.mass, r.moment, r.force⟩ := rfl
    rw [hk]
    cases hb : x.world.bodies c.p with
    | rigid r => left; exact ⟨_, fun _ => rfl⟩
    | deformable s =>
      cases hv : s.volScalar with
      | true => left; exact ⟨.indexError, fun _ => by simp [hv]⟩
      | false =>
        right
        intro gr
        simp only [hv, Bool.false_eq_true, if_false]
        congr 3
        simp only [p2gBody, GridArrays.new, Body.position, zero_add]
        rfl

theorem aflip_deposits (dom : Fin z.G → GridDomain K dim) (x : Ctx z K dim SS LS (ForceState K dim)) (c : Coupling z)
    (hl : x.cache.interactions c.p c.g = some ⟨c.ker, compute c.ker (dom c.g) (x.world.bodies c.p).position⟩) :
    Deposits (aflipP2gCoupling dom) x (aflipContribution dom x.world x.mech.solvers) c := by
  unfold Deposits aflipP2gCoupling
  cases hs : c.skip with
  | true => right; intro gr; simp
  | false =>
    simp only [Bool.false_eq_true, if_false, hl]
    have hk : aflipContribution dom x.world x.mech.solvers c = match x.world.bodies c.p with
      | .rigid _ => ⟨fun _ => 0, fun _ _ => 0, fun _ _ => 0⟩
      | .deformable s =>
        let r := aflipP2gBody (dom c.g).cellSize (compute c.ker (dom c.g) s.position)
          (fun q => x.mech.solvers c.s q.val) s GridArrays.new
        ⟨r.mass, r.moment, r.force⟩ := rfl
    rw [hk]
    cases hb : x.world.bodies c.p with
    | rigid r => left; exact ⟨_, fun _ => rfl⟩
    | deformable s =>
      cases hv : s.volScalar with
      | true => left; exact ⟨.indexError, fun _ => by simp [hv]⟩
      | false =>
        right
        intro gr
        simp only [hv, Bool.false_eq_true, if_false]
        congr 3
        simp only [aflipP2gBody, GridArrays.new, Body.position, zero_add]
        rfl

theorem addsUp_order {cs cs' : List (Coupling z)} (hp : cs'.Perm cs) {k : Coupling z → Contribution K dim} {g : Fin z.G}
    {gr gr1 gr2 : GridArrays K dim} (h1 : AddsUp cs k g gr gr1) (h2 : AddsUp cs' k g gr gr2) :
    gr2.mass = gr1.mass ∧ gr2.moment = gr1.moment := by
  constructor
  · funext j
    rw [h1.mass, h2.mass]
    congr 1
    exact ((hp.filter _).map _).sum_eq
  · funext j a
    rw [h1.moment, h2.moment]
    congr 1
    exact ((hp.filter _).map _).sum_eq

theorem deposits_order {step : Ctx z K dim SS LS (ForceState K dim) → Coupling z →
      Except PyErr (Ctx z K dim SS LS (ForceState K dim))}
    {x x1 : Ctx z K dim SS LS (ForceState K dim)} {k : Coupling z → Contribution K dim} {cs cs' : List (Coupling z)}
    (hp : cs'.Perm cs) (hd : ∀ c ∈ cs, Deposits step x k c) (h : foldE step x cs = .ok x1) :
    (∀ g, AddsUp cs k g (x.cache.grids g) (x1.cache.grids g)) ∧
    (∀ g, (x1.cache.grids g).force = (((cs.filter fun c => !c.skip && decide (c.g = g)).getLast?).map
      fun c => (k c).force).getD (x.cache.grids g).force) ∧
    ∃ x2, foldE step x cs' = .ok x2 ∧ ∀ g, (x2.cache.grids g).mass = (x1.cache.grids g).mass ∧
      (x2.cache.grids g).moment = (x1.cache.grids g).moment := by
  rcases deposits_fold cs hd x.cache.grids with ⟨-, e, he⟩ | ⟨hne, gr1, h1, a1⟩
  · exact absurd (h.symm.trans he) (by simp)
  · have e1 : x1 = { x with cache := { x.cache with grids := gr1 } } := Except.ok.inj (h.symm.trans h1)
    subst e1
    refine ⟨fun g => (a1 g).1, fun g => (a1 g).2, ?_⟩
    rcases deposits_fold cs' (fun c hc => hd c (hp.mem_iff.mp hc)) x.cache.grids with ⟨⟨c, hc, hce⟩, -⟩ | ⟨-, gr2, h2, a2⟩
    · exact absurd hce (hne c (hp.mem_iff.mp hc))
    · exact ⟨_, h2, fun g => addsUp_order hp (a1 g).1 (a2 g).1⟩

/-- Mass and momentum of a shared grid after the USL transfer are the sums over the bodies, whatever the order of the
couplings. The force part of the property is false, see `shared_grid_force_fails`. -/
theorem shared_grid_partial (dom : Fin z.G → GridDomain K dim) {x x1 : Ctx z K dim SS LS (ForceState K dim)}
    {cs cs' : List (Coupling z)} (hp : cs'.Perm cs) (hl : HasLists dom x cs) (h : foldE p2gCoupling x cs = .ok x1) :
    (∀ g, AddsUp cs (uslContribution dom x.world) g (x.cache.grids g) (x1.cache.grids g)) ∧
    ∃ x2, foldE p2gCoupling x cs' = .ok x2 ∧ ∀ g, (x2.cache.grids g).mass = (x1.cache.grids g).mass ∧
      (x2.cache.grids g).moment = (x1.cache.grids g).moment := by
  have := deposits_order hp (fun c hc => p2g_deposits dom x c (hl c hc)) h
  exact ⟨this.1, this.2.2⟩

/-- The same for the AFLIP transfer. -/
theorem aflip_shared_grid_partial (dom : Fin z.G → GridDomain K dim) {x x1 : Ctx z K dim SS LS (ForceState K dim)}
    {cs cs' : List (Coupling z)} (hp : cs'.Perm cs) (hl : HasLists dom x cs)
    (h : foldE (aflipP2gCoupling dom) x cs = .ok x1) :
    (∀ g, AddsUp cs (aflipContribution dom x.world x.mech.solvers) g (x.cache.grids g) (x1.cache.grids g)) ∧
    ∃ x2, foldE (aflipP2gCoupling dom) x cs' = .ok x2 ∧ ∀ g, (x2.cache.grids g).mass = (x1.cache.grids g).mass ∧
      (x2.cache.grids g).moment = (x1.cache.grids g).moment := by
  have := deposits_order hp (fun c hc => aflip_deposits dom x c (hl c hc)) h
  exact ⟨this.1, this.2.2⟩

/-- The nodal forces after the transfer are those of the last active coupling of the grid alone. -/
theorem shared_grid_force_last (dom : Fin z.G → GridDomain K dim) {x x1 : Ctx z K dim SS LS (ForceState K dim)}
    {cs : List (Coupling z)} (hl : HasLists dom x cs) (h : foldE p2gCoupling x cs = .ok x1) (g : Fin z.G)
    (c : Coupling z) (hc : (cs.filter fun c => !c.skip && decide (c.g = g)).getLast? = some c) :
    (x1.cache.grids g).force = (uslContribution dom x.world c).force := by
  have := (deposits_order (List.Perm.refl cs) (fun c hc => p2g_deposits dom x c (hl c hc)) h).2.1 g
  rw [this, hc]
  rfl

end

/-! ### Two bodies on one grid -/

/-- Two bodies, one grid. -/
abbrev exSharedSz : Sz := { P := 2, G := 1, C := 2, S := 2, D := 0, np := fun _ => 2 }

def exSharedCoupling (p : Fin 2) : Coupling exSharedSz :=
  { ker := .linear, p := p, g := (0 : Fin 1), c := p, s := p, skip := false }

/-- A second body, next to `exBody`. -/
def exSharedBody : MPState ℚ 2 2 :=
  MPState.create
    { position := ![![2 / 3, 9 / 10], ![1 / 5, 1 / 4]]
      velocity := some ![![-1, 2], ![0, 1]]
      mass := some ![3, 1]
      volume := some ![1 / 4, 1 / 2]
      stress := some fun _ => !![2, 0, 0; 0, 5, 0; 0, 0, 1] }

def exSharedWorld : World exSharedSz ℚ 2 Unit :=
  { bodies := fun p => .deformable (if p = 0 then exBody else exSharedBody), sdfs := Fin.elim0 }

def exSharedSolver (cs : List (Coupling exSharedSz)) : Solver exSharedSz ℚ 2 Unit (LawState ℚ) (ForceState ℚ 2) :=
  { alpha := 99 / 100
    domains := fun _ => GridDomain.create (fun _ => 0) (fun _ => 1) (1 / 2) 2
    couplings := cs
    laws := fun _ => elasticLaw 1000 (1 / 4) false
    forces := []
    sdfs := Fin.elim0
    sharpness := 10 }

def exSharedCtx (cs : List (Coupling exSharedSz)) : Ctx exSharedSz ℚ 2 Unit (LawState ℚ) (ForceState ℚ 2) :=
  { world := exSharedWorld
    mech := { laws := fun _ => .elastic fun _ => 0, solvers := fun _ _ => 0, forces := [] }
    cache := buildCache ratFns (exSharedSolver cs) exSharedWorld (1 / 100) }

/-- Read a number from the grid of the result of a transfer. -/
def gridProbe (r : Except PyErr (Ctx exSharedSz ℚ 2 Unit (LawState ℚ) (ForceState ℚ 2))) (f : GridArrays ℚ 2 → ℚ) : Option ℚ :=
  match r with
  | .error _ => none
  | .ok x => some (f (x.cache.grids (0 : Fin 1)))

theorem exSharedCtx_lists (cs : List (Coupling exSharedSz)) (hn : (cs.map (·.p)).Nodup) :
    HasLists (exSharedSolver cs).domains (exSharedCtx cs) cs := by
  intro c hc
  change (buildCache ratFns (exSharedSolver cs) exSharedWorld (1 / 100)).interactions c.p c.g = _
  rw [buildCache_interactions]
  exact computeConnectivity_self (exSharedSolver cs) exSharedWorld hn c hc

set_option maxRecDepth 100000 in
/-- The force part of the property is false: with two bodies on one grid the nodal force after the transfer is not the sum
of the two contributions, and it depends on the order of the couplings. -/
theorem shared_grid_force_fails :
    let cs := [exSharedCoupling 0, exSharedCoupling 1]
    let k := uslContribution (exSharedSolver cs).domains exSharedWorld
    gridProbe (foldE p2gCoupling (exSharedCtx cs) cs) (fun g => g.force 24 0) ≠
      some ((k (exSharedCoupling 0)).force 24 0 + (k (exSharedCoupling 1)).force 24 0) ∧
    gridProbe (foldE p2gCoupling (exSharedCtx cs) cs) (fun g => g.force 24 0) ≠
      gridProbe (foldE p2gCoupling (exSharedCtx cs) cs.reverse) (fun g => g.force 24 0) := by
  decide +kernel

set_option maxRecDepth 100000 in
/-- `shared_grid_partial` on the scene with two bodies. -/
example : ∃ x1 x2, foldE p2gCoupling (exSharedCtx [exSharedCoupling 0, exSharedCoupling 1]) [exSharedCoupling 0, exSharedCoupling 1] = .ok x1 ∧
    foldE p2gCoupling (exSharedCtx [exSharedCoupling 0, exSharedCoupling 1]) [exSharedCoupling 1, exSharedCoupling 0] = .ok x2 ∧
    (x2.cache.grids (0 : Fin 1)).mass = (x1.cache.grids (0 : Fin 1)).mass := by
  have h : gridProbe (foldE p2gCoupling (exSharedCtx [exSharedCoupling 0, exSharedCoupling 1]) [exSharedCoupling 0, exSharedCoupling 1])
    (fun _ => 0) = some 0 := by decide +kernel
  cases hx : foldE p2gCoupling (exSharedCtx [exSharedCoupling 0, exSharedCoupling 1]) [exSharedCoupling 0, exSharedCoupling 1] with
  | error e => rw [hx] at h; simp [gridProbe] at h
  | ok x1 =>
    have := shared_grid_partial (exSharedSolver [exSharedCoupling 0, exSharedCoupling 1]).domains (List.Perm.swap _ _ _)
      (exSharedCtx_lists [exSharedCoupling 0, exSharedCoupling 1] (by decide)) hx
    obtain ⟨-, x2, e, hm⟩ := this
    exact ⟨x1, x2, rfl, e, (hm 0).1⟩

end Hydrax
