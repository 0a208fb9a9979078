import Verif.Lemmas.SplitScene
import Verif.Lemmas.ExampleScene

/-!
# C147: splitting material points changes nothing
-/

set_option linter.unusedSectionVars false

namespace Hydrax

open Spec

namespace Spec

/-- Laws that read the density as the quotient of mass and volume, or not at all. -/
inductive PlainLaw {K : Type*} [Field K] [LinearOrder K] {dim : ℕ} : Law K dim (LawState K) → Prop
  | elastic (E nu reset) : PlainLaw (elasticLaw E nu reset)
  | fluid (fn pr reset) : PlainLaw (fluidLaw fn pr reset)
  | muI (fn pr reset) : PlainLaw (muILaw fn pr reset)

/-- The same force set up in two scenes that differ in the numbers of points. -/
inductive SameForce {z : Sz} {K : Type*} [Field K] [LinearOrder K] {dim : ℕ} {SS LS : Type*} (S : SceneSplit z K LS) :
    ForceHooks z K dim SS LS (ForceState K dim) → ForceHooks S.sz K dim SS LS (ForceState K dim) → Prop
  | gravity (onGrid ps gs fIdx) : SameForce S (gravityForce onGrid ps gs fIdx) (gravityForce (z := S.sz) onGrid ps gs fIdx)
  | damping (onGrid ps gs fIdx) : SameForce S (dampingForce onGrid ps gs fIdx) (dampingForce (z := S.sz) onGrid ps gs fIdx)
  | sdfCollider (fn sdf gs gap base) : SameForce S (sdfColliderForce fn sdf gs gap base) (sdfColliderForce (z := S.sz) fn sdf gs gap base)
  | gridContact : SameForce S gridContactForce (gridContactForce (z := S.sz))

/-- The solver `sv'` is set up for the split scene as `sv` for the whole one, with laws, forces and obstacles of the package. -/
structure SameSetup {z : Sz} {K : Type*} [Field K] [LinearOrder K] {dim : ℕ} {SS : Type*} (S : SceneSplit z K (LawState K))
    (sv : Solver z K dim SS (LawState K) (ForceState K dim)) (sv' : Solver S.sz K dim SS (LawState K) (ForceState K dim)) : Prop where
  alpha : sv'.alpha = sv.alpha
  domains : sv'.domains = sv.domains
  couplings : sv'.couplings = sv.couplings.map S.coupling
  laws : sv'.laws = sv.laws
  arrays : ∀ c ∈ sv.couplings, S.law c.c = (S.parts c.p).lawState
  forces : List.Forall₂ (SameForce S) sv.forces sv'.forces
  sdfs : sv'.sdfs = sv.sdfs

end Spec

section
variable {K : Type*} [Field K] [LinearOrder K] [IsStrictOrderedRing K] [FloorRing K] {dim n m : ℕ}

theorem Parts.num_of (S : Parts K n m) (j : Fin m) : S.num j = S.of j := by
  unfold Parts.num
  rw [dif_pos j.isLt]

theorem Parts.ratio (S : Parts K n m) (j : Fin m) (a b : K) : S.share j * a / (S.share j * b) = a / b :=
  mul_div_mul_left a b (S.pos j).ne'

theorem ofFin_split {α : Type*} (S : Parts K n m) (d : α) (f : Fin n → α) :
    ofFin d (fun j => f (S.of j)) = fun i => ofFin d f (S.num i) := by
  funext i
  unfold ofFin Parts.num
  by_cases hi : i < m
  · have : (S.of ⟨i, hi⟩ : ℕ) < n := (S.of ⟨i, hi⟩).isLt
    simp only [dif_pos hi, dif_pos this]
  · have : ¬ n + i < n := by omega
    simp only [dif_neg hi, dif_neg this]

theorem plainLaw_split {law : Law K dim (LawState K)} (hl : PlainLaw law) (S : Parts K n m) : Parts.LawSplit S S.lawState law where
  update s ls dt := by
    have h1 := Parts.num_of S
    have h2 := Parts.ratio S
    cases hl with
    | elastic E nu reset => cases ls <;> rfl
    | fluid fn pr reset =>
      cases ls <;> try rfl
      simp only [fluidLaw, Parts.lawState, h1, Parts.mp, fluidStress, h2]
      split_ifs <;> rfl
    | muI fn pr reset =>
      cases ls <;> try rfl
      simp only [muILaw, Parts.lawState, h1, Parts.mp, muIStress, h2]
      split_ifs <;> rfl

/-- **C147**, Drucker-Prager: a step of the law does not see the splitting if the regularised densities of point and parts lie on the
same side of the density at which the material separates. -/
theorem dp_split_partial (S : Parts K n m) (fn : MathFns K) (pr : DPParams K) (reset : Bool) (s : MPState K dim n) (ls : LawState K) (dt : K)
    (h : ∀ j, pr.rho0 ≤ (S.mp s).density j ↔ pr.rho0 ≤ s.density (S.of j)) :
    (dpLaw fn pr reset).update (S.mp s) (S.lawState ls) dt
      = ((dpLaw fn pr reset).update s ls dt).map fun r => (S.mp r.1, S.lawState r.2) := by
  cases ls with
  | dp e a b =>
    have hu : ∀ j : Fin m, dpUpdate fn pr ((S.mp s).L j) (e (S.num j)) (a (S.num j)) (b (S.num j)) ((S.mp s).density j) dt =
        dpUpdate fn pr (s.L (S.of j)) (e (S.of j)) (a (S.of j)) (b (S.of j)) (s.density (S.of j)) dt := by
      intro j
      rw [Parts.num_of S j]
      change dpUpdate fn pr (s.L (S.of j)) (e (S.of j)) (a (S.of j)) (b (S.of j)) ((S.mp s).density j) dt = _
      unfold dpUpdate
      simp only
      by_cases hr : pr.rho0 ≤ s.density (S.of j)
      · rw [if_pos (show s.density (S.of j) ≥ pr.rho0 from hr), if_pos (show (S.mp s).density j ≥ pr.rho0 from (h j).mpr hr)]
      · rw [if_neg (show ¬ s.density (S.of j) ≥ pr.rho0 from hr), if_neg (show ¬ (S.mp s).density j ≥ pr.rho0 from fun c => hr ((h j).mp c))]
    simp only [dpLaw, Parts.lawState, hu]
    have e1 := ofFin_split S 0 fun p => (dpUpdate fn pr (s.L p) (e p) (a p) (b p) (s.density p) dt).epsE
    have e2 := ofFin_split S 0 fun p => (dpUpdate fn pr (s.L p) (e p) (a p) (b p) (s.density p) dt).epsP
    simp only [Except.map, ← e1, ← e2]
    rfl
  | _ => rfl

/-- **C147**, Cam-Clay: the same with the specific volume at which the clay separates. -/
theorem mcc_split_partial (S : Parts K n m) (fn : MathFns K) (ops : NewtonOps K) (pr : MCCParams K) (reset : Bool) (s : MPState K dim n)
    (ls : LawState K) (dt : K)
    (h : ∀ j, pr.rhoP / (S.mp s).density j ≤ pr.N * (999999 / 1000000) ↔ pr.rhoP / s.density (S.of j) ≤ pr.N * (999999 / 1000000)) :
    (mccLaw fn ops pr reset).update (S.mp s) (S.lawState ls) dt
      = ((mccLaw fn ops pr reset).update s ls dt).map fun r => (S.mp r.1, S.lawState r.2) := by
  cases ls with
  | mcc pc r e =>
    cases r with
    | none => rfl
    | some r =>
      have hu : ∀ j : Fin m, mccUpdate fn ops pr ((S.mp s).L j) (e (S.num j)) ((S.mp s).stress j) (pc (S.num j)) (r (S.num j))
          (pr.rhoP / (S.mp s).density j) dt =
          mccUpdate fn ops pr (s.L (S.of j)) (e (S.of j)) (s.stress (S.of j)) (pc (S.of j)) (r (S.of j)) (pr.rhoP / s.density (S.of j)) dt := by
        intro j
        rw [Parts.num_of S j]
        change mccUpdate fn ops pr (s.L (S.of j)) (e (S.of j)) (s.stress (S.of j)) (pc (S.of j)) (r (S.of j))
          (pr.rhoP / (S.mp s).density j) dt = _
        unfold mccUpdate
        simp only
        by_cases hr : pr.rhoP / s.density (S.of j) ≤ pr.N * (999999 / 1000000)
        · rw [if_pos hr, if_pos ((h j).mpr hr)]
        · rw [if_neg hr, if_neg (fun c => hr ((h j).mp c))]
      simp only [mccLaw, Parts.lawState, Option.map_some, hu]
      have e1 := ofFin_split S 0 fun p => (mccUpdate fn ops pr (s.L p) (e p) (s.stress p) (pc p) (r p) (pr.rhoP / s.density p) dt).pc
      have e2 := ofFin_split S 0 fun p => (mccUpdate fn ops pr (s.L p) (e p) (s.stress p) (pc p) (r p) (pr.rhoP / s.density p) dt).epsE
      simp only [Except.map, ← e1, ← e2]
      rfl
  | _ => rfl

/-- **C147**: parts are recorded with a lower density than the point, by at most the share `10⁻¹⁶ / volume of the part`. -/
theorem density_split (S : Parts K n m) (s : MPState K dim n) (j : Fin m) (hm : 0 < s.mass (S.of j)) (hv : 0 < s.volume (S.of j)) :
    (S.mp s).density j ≤ s.density (S.of j) ∧ (S.share j < 1 → (S.mp s).density j < s.density (S.of j)) ∧
      s.mass (S.of j) / s.volume (S.of j) * (1 - 1 / 10 ^ 16 / (S.mp s).volume j) ≤ (S.mp s).density j := by
  have hw := S.pos j
  have hw1 : S.share j ≤ 1 := by
    rw [← S.total (S.of j)]
    exact Finset.single_le_sum (f := S.share) (fun i _ => (S.pos i).le) (Finset.mem_filter.mpr ⟨Finset.mem_univ j, rfl⟩)
  set w := S.share j with hwd
  set M := s.mass (S.of j) with hM
  set V := s.volume (S.of j) with hV
  have e1 : (S.mp s).density j = w * M / (w * V + 1 / 10 ^ 16) := rfl
  have e2 : s.density (S.of j) = M / (V + 1 / 10 ^ 16) := rfl
  have e3 : (S.mp s).volume j = w * V := rfl
  rw [e1, e2, e3]
  have hwV : 0 < w * V := mul_pos hw hv
  have he : (0 : K) < 1 / 10 ^ 16 := by positivity
  have d1 : 0 < w * V + 1 / 10 ^ 16 := by linarith
  have d2 : 0 < V + 1 / 10 ^ 16 := by linarith
  refine ⟨?_, fun h => ?_, ?_⟩
  · rw [div_le_div_iff₀ d1 d2]
    nlinarith [mul_nonneg hm.le (mul_nonneg (sub_nonneg.mpr hw1) he.le)]
  · rw [div_lt_div_iff₀ d1 d2]
    nlinarith [mul_pos hm (mul_pos (sub_pos.mpr h) he)]
  · rw [le_div_iff₀ d1]
    have : M / V * (1 - 1 / 10 ^ 16 / (w * V)) * (w * V + 1 / 10 ^ 16) = w * M * (1 - (1 / 10 ^ 16) ^ 2 / (w * V) ^ 2) := by
      have := hv.ne'
      have := hw.ne'
      field_simp
      ring
    rw [this]
    have h1 : 0 ≤ (1 / 10 ^ 16 : K) ^ 2 / (w * V) ^ 2 := by positivity
    nlinarith [mul_nonneg (mul_pos hw hm).le h1]

end

section
variable {z : Sz} {K : Type*} [Field K] [LinearOrder K] [IsStrictOrderedRing K] [FloorRing K] {dim : ℕ} {SS : Type*}
  {S : SceneSplit z K (LawState K)} {sv : Solver z K dim SS (LawState K) (ForceState K dim)}
  {sv' : Solver S.sz K dim SS (LawState K) (ForceState K dim)}

theorem SceneSplit.CtxSplit.foldGrids {x : Ctx z K dim SS (LawState K) (ForceState K dim)}
    {x' : Ctx S.sz K dim SS (LawState K) (ForceState K dim)} (hx : CtxSplit S x x')
    {f : Ctx z K dim SS (LawState K) (ForceState K dim) → Fin z.G → GridArrays K dim}
    {f' : Ctx S.sz K dim SS (LawState K) (ForceState K dim) → Fin z.G → GridArrays K dim}
    (hf : ∀ x x', CtxSplit S x x' → ∀ g, f' x' g = f x g) (gs : List (Fin z.G)) :
    CtxSplit S (gs.foldl (fun x g => x.setGrid g (f x g)) x) (gs.foldl (fun x g => x.setGrid g (f' x g)) x') := by
  induction gs generalizing x x' with
  | nil => exact hx
  | cons g gs ih =>
    refine ih ?_
    simp only [hf _ _ hx]
    exact hx.setGrid g _

theorem sameForce_split {f : ForceHooks z K dim SS (LawState K) (ForceState K dim)}
    {f' : ForceHooks S.sz K dim SS (LawState K) (ForceState K dim)} (hf : SameForce S f f') : SceneSplit.HookSplit S f f' := by
  have hm : ∀ {x : Ctx z K dim SS (LawState K) (ForceState K dim)} {x' : Ctx S.sz K dim SS (LawState K) (ForceState K dim)},
      SceneSplit.CtxSplit S x x' → x'.mech.forces = x.mech.forces := fun hx => by rw [hx.mech]; rfl
  cases hf with
  | gravity onGrid ps gs fIdx =>
    refine ⟨fun _ _ _ _ => rfl, fun x x' dt t hx => ?_, fun x x' dt t hx => ?_, fun x x' dt t hx => .ok hx⟩
    · simp only [gravityForce, hm hx]
      split_ifs
      · exact .ok hx
      · cases x.mech.forces[fIdx]? with
        | none => exact .error _
        | some f => exact .ok hx
      · cases getGravity x.mech.forces fIdx with
        | error e => exact .error _
        | ok g => exact .error _
    · simp only [gravityForce, hm hx]
      split_ifs
      · exact .ok hx
      · cases getGravity x.mech.forces fIdx with
        | error e => exact .error _
        | ok g =>
          exact .ok (hx.foldGrids (f := fun x k => gravityGrid g (x.cache.grids k))
            (f' := fun x k => gravityGrid g (x.cache.grids k)) (fun x x' hx k => by rw [hx.grid]) gs)
  | damping onGrid ps gs fIdx =>
    refine ⟨fun _ _ _ _ => rfl, fun x x' dt t hx => ?_, fun x x' dt t hx => ?_, fun x x' dt t hx => .ok hx⟩
    · simp only [dampingForce, hm hx]
      split_ifs
      · exact .ok hx
      · cases getDamping x.mech.forces fIdx with
        | error e => exact .error _
        | ok al =>
          refine ExSym.foldE (R := SceneSplit.CtxSplit S) (fun x x' p hx => ?_) ps hx
          rw [hx.body p]
          cases x.world.bodies p with
          | rigid r => exact .error _
          | deformable s =>
            refine .ok ?_
            rw [dampingBody_split (S.parts p)]
            exact hx.setBody p (.deformable (dampingBody al s))
    · simp only [dampingForce, hm hx]
      split_ifs
      · exact .ok hx
      · cases getDamping x.mech.forces fIdx with
        | error e => exact .error _
        | ok al =>
          exact .ok (hx.foldGrids (f := fun x k => dampingGrid al (x.cache.grids k))
            (f' := fun x k => dampingGrid al (x.cache.grids k)) (fun x x' hx k => by rw [hx.grid]) gs)
  | sdfCollider fn sdf gs gap base =>
    refine ⟨fun _ _ _ _ => rfl, fun x x' dt t hx => .ok hx, fun x x' dt t hx => .ok hx, fun x x' dt t hx => ?_⟩
    cases sdf with
    | none => exact .ok hx
    | some d =>
      exact .ok (hx.foldGrids (f := fun x k => collideGrid fn.sqrt gap base dt (x.cache.nodeGeoms k d) (x.cache.grids k))
        (f' := fun x k => collideGrid fn.sqrt gap base dt (x.cache.nodeGeoms k d) (x.cache.grids k))
        (fun x x' hx k => by rw [hx.grid, hx.nodeGeoms]) gs)
  | gridContact =>
    exact ⟨fun _ _ _ _ => rfl, fun x x' dt t hx => .ok hx, fun x x' dt t hx => .ok hx, fun x x' dt t hx => .error _⟩

theorem sameSetup_split (hs : SameSetup S sv sv') : SceneSplit.SolverSplit S sv sv' where
  alpha := hs.alpha
  domains := hs.domains
  couplings := hs.couplings
  laws := hs.laws
  forces := hs.forces.imp fun _ _ h => sameForce_split h
  sdfs := hs.sdfs

theorem plainLaws_split (hs : SameSetup S sv sv') (hl : ∀ c ∈ sv.couplings, PlainLaw (sv.laws c.c)) :
    ∀ c ∈ sv.couplings, Parts.LawSplit (S.parts c.p) (S.law c.c) (sv.laws c.c) := fun c hc => by
  rw [hs.arrays c hc]; exact plainLaw_split (hl c hc) _

/-- **C147**, one call of the USL solver. -/
theorem usl_split (hs : SameSetup S sv sv') (hl : ∀ c ∈ sv.couplings, PlainLaw (sv.laws c.c)) (fn : MathFns K) (st : SimState z K dim SS (LawState K) (ForceState K dim)) :
    uslCall fn sv' (S.state st) = (uslCall fn sv st).map S.state :=
  SceneSplit.call_split (sameSetup_split hs) (plainLaws_split hs hl) fn st

/-- **C147**, any number of calls: the parts of a point stay together and move, deform and are stressed as the point does, or the same
exception is raised. -/
theorem usl_run_split (hs : SameSetup S sv sv') (hl : ∀ c ∈ sv.couplings, PlainLaw (sv.laws c.c)) (fn : MathFns K) (k : ℕ) (st : SimState z K dim SS (LawState K) (ForceState K dim)) :
    runSteps (uslCall fn sv') k (S.state st) = (runSteps (uslCall fn sv) k st).map S.state := by
  induction k with
  | zero => rfl
  | succ k ih =>
    simp only [runSteps, ih]
    cases runSteps (uslCall fn sv) k st with
    | error e => rfl
    | ok s => exact usl_split hs hl fn s

end

section
variable {K : Type*} [Field K] [LinearOrder K] [IsStrictOrderedRing K] [FloorRing K] {dim n m : ℕ}

theorem aflipP2gBody_split (S : Parts K n m) (ker : Kernel) (g : GridDomain K dim) (cell : K) (pos : Fin n → Fin dim → K)
    (s : MPState K dim n) (Bp : Fin n → Mat3 K) (gr : GridArrays K dim) :
    aflipP2gBody cell (compute ker g fun q => pos (S.of q)) (fun j => Bp (S.of j)) (S.mp s) gr
      = aflipP2gBody cell (compute ker g pos) Bp s gr := by
  simp only [aflipP2gBody, GridArrays.mk.injEq, true_and]
  refine ⟨?_, ?_, ?_⟩
  · funext j
    refine congrArg (gr.mass j + ·) (Eq.trans ?_ (scatterAdd_split S ker g pos (fun p I => I.shapeVal * 1 * s.mass p) j))
    congr 1
    funext i
    change _ * 1 * (S.share _ * s.mass _) = S.share _ * (_ * 1 * s.mass _)
    ring
  · funext j a
    refine congrArg (gr.moment j a + ·) (Eq.trans ?_ (scatterAdd_split S ker g pos (fun p I => I.shapeVal * 1 * s.mass p *
      (s.velocity p a - trunc3 dim (fun r => ∑ k, Bp p r k * (-1 * I.relDist k * cell)) a)) j))
    congr 1
    funext i
    change _ * 1 * (S.share _ * s.mass _) * (s.velocity _ a - trunc3 dim (fun r => ∑ k, Bp _ r k * (-1 * _ * cell)) a)
      = S.share _ * (_ * 1 * s.mass _ * (s.velocity _ a - trunc3 dim (fun r => ∑ k, Bp _ r k * (-1 * _ * cell)) a))
    ring
  · funext j a
    refine congrArg (0 + ·) (Eq.trans ?_ (scatterAdd_split S ker g pos
      (fun p I => 1 * s.volume p * internTerm dim (s.stress p) I.shapeGrad a * 1 + I.shapeVal * 1 * s.force p a) j))
    congr 1
    funext i
    change 1 * (S.share _ * s.volume _) * internTerm dim (s.stress _) _ a * 1 + _ * 1 * (S.share _ * s.force _ a) =
      S.share _ * (1 * s.volume _ * internTerm dim (s.stress _) _ a * 1 + _ * 1 * s.force _ a)
    ring

theorem aflipG2pBody_split (S : Parts K n m) (h1 : n ≠ 1) (sqrt : K → K) (pr : AflipParams K) (hdyn : pr.useDynamicAlpha = false)
    (ker : Kernel) (g : GridDomain K dim) (cell dt : K) (pos : Fin n → Fin dim → K) (s : MPState K dim n) (gr' : GridArrays K dim) :
    aflipG2pBody sqrt pr cell dt (compute ker g fun q => pos (S.of q)) gr' (S.mp s)
      = (aflipG2pBody sqrt pr cell dt (compute ker g pos) gr' s).map fun r => (S.mp r.1, fun j => r.2 (S.of j)) := by
  have eV : ∀ p a, _ = _ := fun p a => pointSum_split S ker g pos
    (fun p I => I.shapeVal * nodeVel pr.cutoff (gr'.mass I.nodeHash) (gr'.moment I.nodeHash a)) p
  have eN : ∀ p a, _ = _ := fun p a => pointSum_split S ker g pos
    (fun p I => I.shapeVal * nodeVel pr.cutoff (gr'.mass I.nodeHash) (gr'.momentNt I.nodeHash a)) p
  have eB : ∀ p j k, _ = _ := fun p (j k : Fin 3) => pointSum_split S ker g pos
    (fun p I => -(pad3 (fun a => nodeVel pr.cutoff (gr'.mass I.nodeHash) (gr'.momentNt I.nodeHash a)) j * I.shapeGrad k)) p
  have e1 : decide (m = 1) = decide (n = 1) := by
    rw [decide_eq_false h1, decide_eq_false (Parts.one_iff S h1)]
  unfold aflipG2pBody
  split_ifs
  · rfl
  · simp only [aflipG2pMls, aflipGather, dynAlpha, hdyn, Bool.false_eq_true, if_false, eV, eN, eB, e1, Except.map]
    refine congrArg Except.ok (Prod.ext ?_ rfl)
    simp only [Parts.mp, MPState.mk.injEq, true_and, and_true]
    repeat' apply And.intro
    all_goals first
      | rfl
      | (cases s.FStore <;> rfl)
      | (funext j; exact mul_left_comm _ _ _)

/-- **C147**, transfers of the ASFLIP solver with constant blending: the grid receives the same, and the parts move as the point. -/
theorem aflip_split_partial (S : Parts K n m) (h1 : n ≠ 1) (sqrt : K → K) (pr : AflipParams K) (hdyn : pr.useDynamicAlpha = false)
    (ker : Kernel) (g : GridDomain K dim) (cell dt : K) (s : MPState K dim n) (Bp : Fin n → Mat3 K) (gr gr' : GridArrays K dim) :
    aflipP2gBody cell (compute ker g (S.mp s).position) (fun j => Bp (S.of j)) (S.mp s) gr
      = aflipP2gBody cell (compute ker g s.position) Bp s gr ∧
    aflipG2pBody sqrt pr cell dt (compute ker g (S.mp s).position) gr' (S.mp s)
      = (aflipG2pBody sqrt pr cell dt (compute ker g s.position) gr' s).map fun r => (S.mp r.1, fun j => r.2 (S.of j)) :=
  ⟨aflipP2gBody_split S ker g cell s.position s Bp gr, aflipG2pBody_split S h1 sqrt pr hdyn ker g cell dt s.position s gr'⟩

end

namespace Spec

/-- The second of two points split in a third and two thirds. -/
def exParts : Parts ℚ 2 3 :=
  { of := ![0, 1, 1], share := ![1, 1 / 3, 2 / 3], pos := by decide +kernel, total := by decide +kernel }

/-- The same for the scene of the examples. -/
def exSplit : SceneSplit exSz ℚ (LawState ℚ) :=
  { np := fun _ => 3, parts := fun _ => exParts, many := fun _ => (by decide : (2 : ℕ) ≠ 1), law := fun _ => exParts.lawState,
    solver := fun _ B i => B (exParts.num i) }

def exSplitSolver (ker : Kernel) (reset : Bool) : Solver exSplit.sz ℚ 2 Unit (LawState ℚ) (ForceState ℚ 2) :=
  { alpha := 99 / 100
    domains := fun _ => GridDomain.create (fun _ => 0) (fun _ => 1) (1 / 2) 2
    couplings := [exSplit.coupling (exCoupling ker)]
    laws := fun _ => elasticLaw 1000 (1 / 4) reset
    forces := [gravityForce true [] [(0 : Fin 1)] 0]
    sdfs := Fin.elim0
    sharpness := 10 }

/-- Material that separates at the density of the second point of the example body, as it is recorded. -/
def exLooseSand : DPParams ℚ :=
  { bulk := 1, shear := 1, mu1 := 1, mu2 := 1, c0 := 100, mu1Hat := 0, H := 0, rho0 := 2 / (1 / 2 + 1 / 10 ^ 16) }

def exDynamic : AflipParams ℚ :=
  { alpha := 1, useDynamicAlpha := true, betaMin := 0, betaMax := 0, useMls := true, cutoff := 1 / 10 ^ 12, cfl := 1000 }

/-- Velocity of a point after the transfers of the ASFLIP solver. -/
def aflipVelocity {n : ℕ} (s : MPState ℚ 2 n) (p : Fin n) (a : Fin 2) : Option ℚ :=
  let c := compute .linear (GridDomain.create (fun _ => (0 : ℚ)) (fun _ => 1) (1 / 2) 2) s.position
  match aflipG2pBody id exDynamic (1 / 2) (1 / 100) c (integrateBody (1 / 100) (aflipP2gBody (1 / 2) c (fun _ => 0) s GridArrays.new)) s with
  | .error _ => none
  | .ok r => some (r.1.velocity p a)

end Spec

/-- The hypotheses of `usl_run_split` hold for the example scene. -/
theorem exSplit_setup (ker : Kernel) (reset : Bool) : SameSetup exSplit (exSolver ker reset) (exSplitSolver ker reset) where
  alpha := rfl
  domains := rfl
  couplings := rfl
  laws := rfl
  arrays _ _ := rfl
  forces := List.Forall₂.cons (SameForce.gravity (S := exSplit) true [] [(0 : Fin 1)] 0) List.Forall₂.nil
  sdfs := rfl

example (ker : Kernel) (reset : Bool) (k : ℕ) := usl_run_split (exSplit_setup ker reset) (fun _ _ => .elastic _ _ _) ratFns k exState

set_option maxRecDepth 100000 in
/-- **C147**, refuted for Drucker-Prager (and with the same density for Cam-Clay): the recorded density `m / (V + 10⁻¹⁶)` of a part is
lower than that of the whole, so that the parts separate where the point does not. -/
theorem dp_split_fails :
    ((dpLaw ratFns exLooseSand false).update { exBody with L := fun _ => 1 } (.dp (fun _ => 0) (fun _ => 0) fun _ => 0) (1 / 100)).toOption.map
      (fun r => r.1.stress 1 0 0) = some (3 / 100) ∧
    ((dpLaw ratFns exLooseSand false).update (exParts.mp { exBody with L := fun _ => 1 })
      (exParts.lawState (.dp (fun _ => 0) (fun _ => 0) fun _ => 0)) (1 / 100)).toOption.map (fun r => r.1.stress 1 0 0) = some 0 := by
  decide +kernel

set_option maxRecDepth 100000 in
/-- **C147**, refuted for the ASFLIP solver with dynamic blending: the mass around a point is compared with the mass of the point, which
splitting makes smaller. -/
theorem aflip_dynamic_split_fails :
    aflipVelocity (exParts.mp exBody) 1 0 ≠ aflipVelocity exBody (exParts.of 1) 0 ∧
      (aflipVelocity exBody 1 0).isSome = true ∧ (aflipVelocity (exParts.mp exBody) 1 0).isSome = true := by
  decide +kernel

/-- Away from the density of separation Drucker-Prager does not see the splitting. -/
example := dp_split_partial exParts ratFns { exLooseSand with rho0 := 3 } false exBody (.dp (fun _ => 0) (fun _ => 0) fun _ => 0) (1 / 100)
  (by decide +kernel)

example (ops : NewtonOps ℚ) (pr : MCCParams ℚ) (hr : pr.rhoP = 6) (hN : pr.N = 2) :=
  mcc_split_partial exParts ratFns ops pr false exBody (.mcc (fun _ => 1) (some fun _ => 1) fun _ => 0) (1 / 100)
    (by rw [hr, hN]; decide +kernel)

example := density_split exParts exBody 1 (by decide +kernel) (by decide +kernel)

example := aflip_split_partial exParts (by decide) id { exDynamic with useDynamicAlpha := false } rfl .cubic
  (GridDomain.create (fun _ => (0 : ℚ)) (fun _ => 1) (1 / 2) 2) (1 / 2) (1 / 100) exBody (fun _ => 0) GridArrays.new

end Hydrax
