import Verif.Props.Splitting

/-!
# C147 for calls and runs of the ASFLIP solver

With constant blending. The affine matrices of the points are kept by the solver: each part has the matrix of its point.
-/

set_option linter.unusedSectionVars false

namespace Hydrax

open Spec

namespace Spec

/-- Each body has its own solver state, in which the parts have the affine matrices of their points. -/
structure MatricesSplit {z : Sz} {K : Type*} [Field K] [LinearOrder K] {dim : ℕ} {SS LS FS : Type*} (S : SceneSplit z K LS)
    (sv : Solver z K dim SS LS FS) : Prop where
  own : ∀ c ∈ sv.couplings, c.skip = false → c.s.val = c.p.val
  matrices : ∀ c ∈ sv.couplings, c.skip = false → S.solver c.s = fun B i => B ((S.parts c.p).num i)

end Spec

section
variable {z : Sz} {K : Type*} [Field K] [LinearOrder K] [IsStrictOrderedRing K] [FloorRing K] {dim : ℕ} {SS LS FS : Type*}
  {S : SceneSplit z K LS} {sv : Solver z K dim SS LS FS} {sv' : Solver S.sz K dim SS LS FS}

theorem SceneSplit.aflipP2g_split (c : Coupling z) (dom : Fin z.G → GridDomain K dim)
    (hm : c.skip = false → S.solver c.s = fun B i => B ((S.parts c.p).num i)) {x : Ctx z K dim SS LS FS} {x' : Ctx S.sz K dim SS LS FS}
    (hx : CtxSplit S x x') : ExSym (CtxSplit S) (aflipP2gCoupling dom x c) (aflipP2gCoupling (z := S.sz) dom x' (S.coupling c)) := by
  unfold aflipP2gCoupling
  by_cases hk : c.skip = true
  · have hk' : (S.coupling c).skip = true := hk
    rw [if_pos hk, if_pos hk']
    exact .ok hx
  have hk' : ¬ (S.coupling c).skip = true := hk
  rw [if_neg hk, if_neg hk']
  have hB : ∀ j : Fin (S.np c.p), x'.mech.solvers c.s j.val = x.mech.solvers c.s ((S.parts c.p).of j).val := by
    intro j
    rw [hx.mech]
    show S.solver c.s (x.mech.solvers c.s) j.val = _
    rw [hm (by simpa using hk), ← Parts.num_of]
  simp only [Spec.SceneSplit.coupling]
  have hi := hx.inter c.p c.g
  rw [hx.body c.p, hx.grid]
  generalize x.cache.interactions c.p c.g = a at hi ⊢
  generalize x'.cache.interactions c.p c.g = b at hi ⊢
  cases hi with
  | none => exact .error _
  | some ker dm pos =>
    cases x.world.bodies c.p with
    | rigid r => exact .error _
    | deformable s =>
      simp only [Parts.body]
      have ev : ((S.parts c.p).mp s).volScalar = s.volScalar := rfl
      rw [ev]
      split_ifs
      · exact .error _
      · refine .ok ?_
        have e : (fun q : Fin (S.np c.p) => x'.mech.solvers c.s q.val) = fun q => x.mech.solvers c.s ((S.parts c.p).of q).val := funext hB
        have := aflipP2gBody_split (S.parts c.p) ker dm (dom c.g).cellSize pos s (fun i => x.mech.solvers c.s i.val) (x.cache.grids c.g)
        rw [← e] at this
        refine Eq.mpr (congrArg (fun g => CtxSplit S _ (x'.setGrid c.g g)) this) ?_
        exact hx.setGrid c.g _

theorem SceneSplit.aflipG2p_split (fn : MathFns K) (pr : AflipParams K) (hdyn : pr.useDynamicAlpha = false) (dt : K) (c : Coupling z)
    (dom : Fin z.G → GridDomain K dim) (ho : c.skip = false → c.s.val = c.p.val)
    (hm : c.skip = false → S.solver c.s = fun B i => B ((S.parts c.p).num i)) {x : Ctx z K dim SS LS FS} {x' : Ctx S.sz K dim SS LS FS}
    (hx : CtxSplit S x x') :
    ExSym (CtxSplit S) (aflipG2pCoupling fn pr dom dt x c) (aflipG2pCoupling (z := S.sz) fn pr dom dt x' (S.coupling c)) := by
  unfold aflipG2pCoupling
  by_cases hk : c.skip = true
  · have hk' : (S.coupling c).skip = true := hk
    rw [if_pos hk, if_pos hk']
    exact .ok hx
  have hk' : ¬ (S.coupling c).skip = true := hk
  rw [if_neg hk, if_neg hk']
  have hk0 : c.skip = false := by simpa using hk
  simp only [Spec.SceneSplit.coupling]
  have hi := hx.inter c.p c.g
  rw [hx.body c.p, hx.grid]
  generalize x.cache.interactions c.p c.g = a at hi ⊢
  generalize x'.cache.interactions c.p c.g = b at hi ⊢
  cases hi with
  | none => exact .error _
  | some ker dm pos =>
    cases x.world.bodies c.p with
    | rigid r => exact .error _
    | deformable s =>
      have hS : c.p.val < z.S := by rw [← ho hk0]; exact c.s.isLt
      have es : (⟨c.p.val, hS⟩ : Fin z.S) = c.s := Fin.ext (ho hk0).symm
      simp only [Parts.body]
      rw [dif_pos hS]
      refine Eq.mpr (congrArg (ExSym (CtxSplit S) _) (dif_pos hS)) ?_
      rw [aflipG2pBody_split (S.parts c.p) (S.many c.p) fn.sqrt pr hdyn ker dm (dom c.g).cellSize dt pos s (x.cache.grids c.g)]
      cases aflipG2pBody fn.sqrt pr (dom c.g).cellSize dt (compute ker dm pos) (x.cache.grids c.g) s with
      | error e => exact .error e
      | ok r =>
        refine .ok ?_
        have h1 := hx.setBody c.p (.deformable r.1)
        refine ⟨h1.world, ?_, h1.inter, h1.grids, h1.mpGeoms, h1.nodeGeoms⟩
        simp only [hx.mech, Spec.SceneSplit.mech, Mech.mk.injEq, true_and, and_true, es]
        funext k
        by_cases hkk : k = c.s
        · subst hkk
          rw [Function.update_self, Function.update_self, hm hk0]
          funext q
          unfold Parts.num
          by_cases hq : q < S.np c.p
          · have : ((S.parts c.p).of ⟨q, hq⟩ : ℕ) < z.np c.p := ((S.parts c.p).of ⟨q, hq⟩).isLt
            simp only [dif_pos hq, dif_pos this]
            exact dif_pos hq
          · have : ¬ z.np c.p + q < z.np c.p := by omega
            simp only [dif_neg hq, dif_neg this]
            exact dif_neg hq
        · rw [Function.update_of_ne hkk, Function.update_of_ne hkk]

theorem SceneSplit.aflipP2g_split' (hs : SolverSplit S sv sv') (hb : MatricesSplit S sv) (dt t : K) {x : Ctx z K dim SS LS FS}
    {x' : Ctx S.sz K dim SS LS FS} (hx : CtxSplit S x x') : ExSym (CtxSplit S) (aflipP2g sv x dt t) (aflipP2g sv' x' dt t) := by
  unfold aflipP2g
  rw [hs.couplings, hs.domains]
  refine ExSym.andThen (hook_split hs _ _ (fun f f' hf x x' hx => hf.pre x x' dt t hx) hx) ?_
  intro a b hab
  exact foldE_couplings (fun c hc a b hab => aflipP2g_split c sv.domains (hb.matrices c hc) hab) hab

theorem SceneSplit.aflipG2p_split' (hs : SolverSplit S sv sv') (hb : MatricesSplit S sv) (fn : MathFns K) (pr : AflipParams K)
    (hdyn : pr.useDynamicAlpha = false) (dt t : K) {x : Ctx z K dim SS LS FS} {x' : Ctx S.sz K dim SS LS FS} (hx : CtxSplit S x x') :
    ExSym (CtxSplit S) (aflipG2p fn pr sv x dt t) (aflipG2p fn pr sv' x' dt t) := by
  unfold aflipG2p
  rw [hs.couplings, hs.domains]
  exact foldE_couplings (fun c hc a b hab => aflipG2p_split fn pr hdyn dt c sv.domains (hb.own c hc) (hb.matrices c hc) hab) hx

/-- One ASFLIP call on the split scene gives the split result. -/
theorem SceneSplit.aflipCall_split (hs : SolverSplit S sv sv')
    (hl : ∀ c ∈ sv.couplings, Parts.LawSplit (S.parts c.p) (S.law c.c) (sv.laws c.c)) (hb : MatricesSplit S sv) (fn : MathFns K) (pr : AflipParams K)
    (hdyn : pr.useDynamicAlpha = false) (st : SimState z K dim SS LS FS) :
    aflipCall fn pr sv' (S.state st) = (aflipCall fn pr sv st).map S.state := by
  apply ExSym.map_eq
  unfold aflipCall callWith
  refine ExSym.andThen (kin_split hs st.world st.mech st.dt st.time) ?_
  rintro a b rfl
  simp only [reset_split hs]
  refine ExSym.andThen (aflipP2g_split' hs hb st.dt st.time (cache_split hs fn _ a.2 st.dt)) ?_
  intro a b hab
  refine ExSym.andThen (integrate_split hs st.dt st.time hab) ?_
  intro a b hab
  refine ExSym.andThen (aflipG2p_split' hs hb fn pr hdyn st.dt st.time hab) ?_
  intro a b hab
  unfold constitutiveUpdate
  rw [hs.couplings]
  refine ExSym.andThen (foldE_couplings (R := CtxSplit S) (fun c hc a b hab =>
    law_split hs fn st.dt c hab fun _ s _ => (hl c hc).update s _ _) hab) ?_
  intro a b hab
  refine .ok ?_
  unfold Spec.SceneSplit.state
  simp only [hab.world, hab.mech]

end

section
variable {z : Sz} {K : Type*} [Field K] [LinearOrder K] [IsStrictOrderedRing K] [FloorRing K] {dim : ℕ} {SS : Type*}
  {S : SceneSplit z K (LawState K)} {sv : Solver z K dim SS (LawState K) (ForceState K dim)}
  {sv' : Solver S.sz K dim SS (LawState K) (ForceState K dim)}

/-- **C147**, one call of the ASFLIP solver with constant blending. -/
theorem aflip_call_split_partial (hs : SameSetup S sv sv') (hl : ∀ c ∈ sv.couplings, PlainLaw (sv.laws c.c)) (hb : MatricesSplit S sv) (fn : MathFns K) (pr : AflipParams K)
    (hdyn : pr.useDynamicAlpha = false) (st : SimState z K dim SS (LawState K) (ForceState K dim)) :
    aflipCall fn pr sv' (S.state st) = (aflipCall fn pr sv st).map S.state :=
  SceneSplit.aflipCall_split (sameSetup_split hs) (plainLaws_split hs hl) hb fn pr hdyn st

/-- **C147**, any number of calls of the ASFLIP solver with constant blending. -/
theorem aflip_run_split_partial (hs : SameSetup S sv sv') (hl : ∀ c ∈ sv.couplings, PlainLaw (sv.laws c.c)) (hb : MatricesSplit S sv) (fn : MathFns K) (pr : AflipParams K)
    (hdyn : pr.useDynamicAlpha = false) (k : ℕ) (st : SimState z K dim SS (LawState K) (ForceState K dim)) :
    runSteps (aflipCall fn pr sv') k (S.state st) = (runSteps (aflipCall fn pr sv) k st).map S.state := by
  induction k with
  | zero => rfl
  | succ k ih =>
    simp only [runSteps, ih]
    cases runSteps (aflipCall fn pr sv) k st with
    | error e => rfl
    | ok s => exact aflip_call_split_partial hs hl hb fn pr hdyn s

end

/-- The example scene with its second point split in a third and two thirds, over runs of any length. -/
example (ker : Kernel) (reset : Bool) (k : ℕ) := aflip_run_split_partial (exSplit_setup ker reset) (fun _ _ => .elastic _ _ _)
  { own := fun c hc _ => by
      obtain rfl : c = exCoupling ker := by simpa [exSolver] using hc
      rfl
    matrices := fun _ _ _ => rfl } ratFns { exDynamic with useDynamicAlpha := false } rfl k exState

end Hydrax
