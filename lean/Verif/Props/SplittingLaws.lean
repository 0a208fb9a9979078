import Verif.Props.SplittingAflip
import Verif.Lemmas.SceneGrid

/-!
# C147 for runs with sand and clay

Drucker-Prager and Cam-Clay read the recorded density, which is a little lower for parts than for the point. Runs in which no recorded
density lies so close to that of separation that point and parts are on different sides of it do not see the splitting.
-/

set_option linter.unusedSectionVars false

namespace Hydrax

open Spec

namespace Spec

/-- The law does not distinguish the body from its parts: it does not separate, or separates at a density that lies on the same side of
the recorded densities of point and part for all parts. -/
inductive SplitUnseen {K : Type*} [Field K] [LinearOrder K] {dim n m : ℕ} (S : Parts K n m) (s : MPState K dim n) : Law K dim (LawState K) → Prop
  | plain {f : Law K dim (LawState K)} (h : PlainLaw f) : SplitUnseen S s f
  | dp (fn pr reset) (h : ∀ j, pr.rho0 ≤ (S.mp s).density j ↔ pr.rho0 ≤ s.density (S.of j)) : SplitUnseen S s (dpLaw fn pr reset)
  | mcc (fn ops pr reset)
    (h : ∀ j, pr.rhoP / (S.mp s).density j ≤ pr.N * (999999 / 1000000) ↔ pr.rhoP / s.density (S.of j) ≤ pr.N * (999999 / 1000000)) :
    SplitUnseen S s (mccLaw fn ops pr reset)

/-- No law of the scene distinguishes its body from the parts of it. -/
def AllSplitUnseen {z : Sz} {K : Type*} [Field K] [LinearOrder K] {dim : ℕ} {SS FS : Type*} (S : SceneSplit z K (LawState K))
    (sv : Solver z K dim SS (LawState K) FS) (w : World z K dim SS) : Prop :=
  ∀ c ∈ sv.couplings, c.skip = false → ∀ s, w.bodies c.p = .deformable s → SplitUnseen (S.parts c.p) s (sv.laws c.c)

end Spec

section
variable {K : Type*} [Field K] [LinearOrder K] [IsStrictOrderedRing K] [FloorRing K] {dim n m : ℕ}

theorem SplitUnseen.congr {S : Parts K n m} {s t : MPState K dim n} {f : Law K dim (LawState K)} (h : SplitUnseen S s f) (hm : t.mass = s.mass)
    (hv : t.volume = s.volume) : SplitUnseen S t f := by
  have e1 : ∀ i, t.density i = s.density i := fun i => by unfold MPState.density; rw [hm, hv]
  have e2 : ∀ j, (S.mp t).density j = (S.mp s).density j := fun j => by
    unfold MPState.density Parts.mp; simp only; rw [hm, hv]
  cases h with
  | plain h => exact .plain h
  | dp fn pr reset h => exact .dp fn pr reset fun j => by rw [e1, e2]; exact h j
  | mcc fn ops pr reset h => exact .mcc fn ops pr reset fun j => by rw [e1, e2]; exact h j

theorem SplitUnseen.update {S : Parts K n m} {s : MPState K dim n} {f : Law K dim (LawState K)} (h : SplitUnseen S s f) (ls : LawState K) (dt : K) :
    f.update (S.mp s) (S.lawState ls) dt = (f.update s ls dt).map fun r => (S.mp r.1, S.lawState r.2) := by
  cases h with
  | plain h => exact (plainLaw_split h S).update s ls dt
  | dp fn pr reset h => exact dp_split_partial S fn pr reset s ls dt h
  | mcc fn ops pr reset h => exact mcc_split_partial S fn ops pr reset s ls dt h

end

section
variable {z : Sz} {K : Type*} [Field K] [LinearOrder K] [IsStrictOrderedRing K] [FloorRing K] {dim : ℕ} {SS : Type*}
  {S : SceneSplit z K (LawState K)} {sv : Solver z K dim SS (LawState K) (ForceState K dim)}
  {sv' : Solver S.sz K dim SS (LawState K) (ForceState K dim)} {fn : MathFns K}

theorem ExSym.ok_left {α β : Type*} {R : α → β → Prop} {x : Except PyErr α} {y : Except PyErr β} (h : ExSym R x y) {a : α} (hx : x = .ok a) :
    ∃ b, y = .ok b ∧ R a b := by
  subst hx
  generalize hy : Except.ok a = x at h
  cases h with
  | ok h => cases hy; exact ⟨_, rfl, h⟩
  | error e => cases hy

/-- Same masses and volumes. -/
def SameBulk (n : ℕ) (s s' : MPState K dim n) : Prop := s'.mass = s.mass ∧ s'.volume = s.volume

theorem law_bulk (hL : ∀ c, (sv.laws c).OnlyStress) (dt : K) (cs : List (Coupling z))
    (x x' : Ctx z K dim SS (LawState K) (ForceState K dim)) (h : foldE (lawCoupling fn sv.laws dt) x cs = .ok x') (p : Fin z.P) :
    Body.Rel SameBulk (x.world.bodies p) (x'.world.bodies p) := by
  have r0 : ∀ n (s : MPState K dim n), SameBulk n s s := fun _ _ => ⟨rfl, rfl⟩
  refine foldE_rel (R := fun (x x' : Ctx z K dim SS (LawState K) (ForceState K dim)) =>
      Body.Rel SameBulk (x.world.bodies p) (x'.world.bodies p))
    (fun _ => Body.Rel.refl r0 _)
    (fun a b c h1 h2 => h1.trans (R := SameBulk) (fun n a b c h1 h2 => ⟨h2.1.trans h1.1, h2.2.trans h1.2⟩) h2) cs x x' ?_ h
  intro c _ y y' hy
  cases hs : c.skip with
  | true =>
    rw [lawCoupling_skip hs hy]
    exact Body.Rel.refl r0 _
  | false =>
    obtain ⟨s, r, hb, hr, rfl⟩ := lawCoupling_ok hs hy
    refine rel_setBody r0 y c.p _ ?_ p
    rw [hb]
    have := hL c.c s _ dt r hr
    change SameBulk _ s (removeShear fn _ r.1)
    rw [this]
    unfold removeShear
    split_ifs <;> exact ⟨rfl, rfl⟩

theorem SceneSplit.laws_unseen (hs : SolverSplit S sv sv') (ha : ∀ c ∈ sv.couplings, S.law c.c = (S.parts c.p).lawState)
    (hL : ∀ c, (sv.laws c).OnlyStress) (dt : K) (cs : List (Coupling z)) (hsub : ∀ c ∈ cs, c ∈ sv.couplings)
    {x y : Ctx z K dim SS (LawState K) (ForceState K dim)} {x' : Ctx S.sz K dim SS (LawState K) (ForceState K dim)} (hx : CtxSplit S x x')
    (h : foldE (lawCoupling fn sv.laws dt) x cs = .ok y) (hu : AllSplitUnseen S sv y.world) :
    ∃ y', foldE (lawCoupling fn sv'.laws dt) x' (cs.map S.coupling) = .ok y' ∧ CtxSplit S y y' := by
  induction cs generalizing x x' with
  | nil => cases h; exact ⟨x', rfl, hx⟩
  | cons c cs ih =>
    have hall := law_bulk (fn := fn) hL dt (c :: cs) x y h c.p
    obtain ⟨x1, h1, h2⟩ := foldE_cons_ok.mp h
    have hcm := hsub c (by simp)
    obtain ⟨x1', h1', hx1⟩ := (law_split hs fn dt c hx fun hk s hb => by
      rw [ha c hcm]
      refine SplitUnseen.update ?_ _ _
      rw [hb] at hall
      cases hy : y.world.bodies c.p with
      | rigid r => rw [hy] at hall; exact hall.elim
      | deformable t =>
        rw [hy] at hall
        exact SplitUnseen.congr (hu c hcm hk t hy) hall.1.symm hall.2.symm).ok_left h1
    obtain ⟨y', h3, h4⟩ := ih (fun d hd => hsub d (by simp [hd])) hx1 h2
    exact ⟨y', by rw [List.map_cons]; exact foldE_cons_ok.mpr ⟨x1', h1', h3⟩, h4⟩

theorem SceneSplit.callWith_unseen (hs : SolverSplit S sv sv') (ha : ∀ c ∈ sv.couplings, S.law c.c = (S.parts c.p).lawState)
    (hL : ∀ c, (sv.laws c).OnlyStress)
    {p2g g2p : Ctx z K dim SS (LawState K) (ForceState K dim) → K → K → Except PyErr (Ctx z K dim SS (LawState K) (ForceState K dim))}
    {p2g' g2p' : Ctx S.sz K dim SS (LawState K) (ForceState K dim) → K → K → Except PyErr (Ctx S.sz K dim SS (LawState K) (ForceState K dim))}
    (hp : ∀ {x x'} dt t, CtxSplit S x x' → ExSym (CtxSplit S) (p2g x dt t) (p2g' x' dt t))
    (hg : ∀ {x x'} dt t, CtxSplit S x x' → ExSym (CtxSplit S) (g2p x dt t) (g2p' x' dt t))
    {st st' : SimState z K dim SS (LawState K) (ForceState K dim)} (h : callWith fn sv p2g g2p st = .ok st') (hu : AllSplitUnseen S sv st'.world) :
    callWith fn sv' p2g' g2p' (S.state st) = .ok (S.state st') := by
  unfold callWith at h ⊢
  obtain ⟨a, h1, h⟩ := andThen_ok.mp h
  obtain ⟨a', h1', rfl⟩ := (kin_split hs st.world st.mech st.dt st.time).ok_left h1
  refine andThen_ok.mpr ⟨_, h1', ?_⟩
  obtain ⟨b, h2, h⟩ := andThen_ok.mp h
  obtain ⟨b', h2', hb⟩ := (hp st.dt st.time (cache_split hs fn _ a.2 st.dt)).ok_left h2
  simp only [reset_split hs]
  refine andThen_ok.mpr ⟨_, h2', ?_⟩
  obtain ⟨c, h3, h⟩ := andThen_ok.mp h
  obtain ⟨c', h3', hc⟩ := (integrate_split hs st.dt st.time hb).ok_left h3
  refine andThen_ok.mpr ⟨_, h3', ?_⟩
  obtain ⟨d, h4, h⟩ := andThen_ok.mp h
  obtain ⟨d', h4', hd⟩ := (hg st.dt st.time hc).ok_left h4
  refine andThen_ok.mpr ⟨_, h4', ?_⟩
  obtain ⟨e, h5, h⟩ := andThen_ok.mp h
  cases h
  unfold constitutiveUpdate at h5 ⊢
  obtain ⟨e', h5', he⟩ := laws_unseen hs ha hL st.dt sv.couplings (fun _ h => h) hd h5 hu
  rw [hs.couplings]
  refine andThen_ok.mpr ⟨_, h5', ?_⟩
  unfold Spec.SceneSplit.state
  simp only [he.world, he.mech]

/-- **C147**, runs with any laws of the package: if the run of the whole points succeeds and none of its recorded densities lies at the
density of separation, the run of the parts gives the parts of its result. -/
theorem usl_run_split_laws_partial (hs : SameSetup S sv sv') (hL : ∀ c, LibLaw (sv.laws c)) (k : ℕ)
    {st st' : SimState z K dim SS (LawState K) (ForceState K dim)} (h : runSteps (uslCall fn sv) k st = .ok st')
    (hu : ∀ i < k, ∀ si, runSteps (uslCall fn sv) (i + 1) st = .ok si → AllSplitUnseen S sv si.world) :
    runSteps (uslCall fn sv') k (S.state st) = .ok (S.state st') := by
  induction k generalizing st' with
  | zero => cases h; rfl
  | succ k ih =>
    have hlast := hu k (by omega) st' h
    obtain ⟨s1, h1, h2⟩ := andThen_ok.mp h
    have hs' := sameSetup_split hs
    exact andThen_ok.mpr ⟨_, ih h1 fun i hi => hu i (by omega),
      SceneSplit.callWith_unseen hs' hs.arrays (fun c => (hL c).onlyStress) (fun dt t hx => SceneSplit.p2g_split' hs' dt t hx)
        (fun dt t hx => SceneSplit.g2p_split' hs' dt t hx) h2 hlast⟩

/-- **C147**, the same for the ASFLIP solver with constant blending. -/
theorem aflip_run_split_laws_partial (hs : SameSetup S sv sv') (hL : ∀ c, LibLaw (sv.laws c)) (hb : MatricesSplit S sv) (pr : AflipParams K)
    (hdyn : pr.useDynamicAlpha = false) (k : ℕ)
    {st st' : SimState z K dim SS (LawState K) (ForceState K dim)} (h : runSteps (aflipCall fn pr sv) k st = .ok st')
    (hu : ∀ i < k, ∀ si, runSteps (aflipCall fn pr sv) (i + 1) st = .ok si → AllSplitUnseen S sv si.world) :
    runSteps (aflipCall fn pr sv') k (S.state st) = .ok (S.state st') := by
  induction k generalizing st' with
  | zero => cases h; rfl
  | succ k ih =>
    have hlast := hu k (by omega) st' h
    obtain ⟨s1, h1, h2⟩ := andThen_ok.mp h
    have hs' := sameSetup_split hs
    exact andThen_ok.mpr ⟨_, ih h1 fun i hi => hu i (by omega),
      SceneSplit.callWith_unseen hs' hs.arrays (fun c => (hL c).onlyStress) (fun dt t hx => SceneSplit.aflipP2g_split' hs' hb dt t hx)
        (fun dt t hx => SceneSplit.aflipG2p_split' hs' hb fn pr hdyn dt t hx) h2 hlast⟩

end

namespace Spec

/-- The example scene with sand that separates at three quarters of the density of its second point. -/
def exSand : DPParams ℚ := { exLooseSand with rho0 := 3 }

def exSandSolver : Solver exSz ℚ 2 Unit (LawState ℚ) (ForceState ℚ 2) := { exSolver .linear false with laws := fun _ => dpLaw ratFns exSand false }

def exSandParts : Solver exSplit.sz ℚ 2 Unit (LawState ℚ) (ForceState ℚ 2) :=
  { exSplitSolver .linear false with laws := fun _ => dpLaw ratFns exSand false }

def exSandState : SimState exSz ℚ 2 Unit (LawState ℚ) (ForceState ℚ 2) :=
  { exState with mech := { exState.mech with laws := fun _ => .dp (fun _ => 0) (fun _ => 0) fun _ => 0 } }

/-- Whether a call succeeds and no recorded density lies at that of separation. -/
def exSandTest : Bool :=
  match uslCall ratFns exSandSolver exSandState with
  | .error _ => false
  | .ok s => match s.world.bodies 0 with
    | .rigid _ => false
    | .deformable b => decide (∀ j, exSand.rho0 ≤ (exParts.mp b).density j ↔ exSand.rho0 ≤ b.density (exParts.of j))

end Spec

set_option maxRecDepth 100000 in
theorem exSandTest_ok : exSandTest = true := by decide +kernel

/-- The hypotheses hold for a step of a scene with sand. -/
example : ∃ st', uslCall ratFns exSandSolver exSandState = .ok st' ∧ uslCall ratFns exSandParts (exSplit.state exSandState) = .ok (exSplit.state st') := by
  have h := exSandTest_ok
  unfold exSandTest at h
  cases hr : uslCall ratFns exSandSolver exSandState with
  | error e => rw [hr] at h; exact absurd h (by simp)
  | ok s =>
    rw [hr] at h
    refine ⟨s, rfl, ?_⟩
    have hs : SameSetup exSplit exSandSolver exSandParts :=
      { alpha := rfl, domains := rfl, couplings := rfl, laws := rfl, arrays := fun _ _ => rfl
        forces := List.Forall₂.cons (SameForce.gravity (S := exSplit) true [] [(0 : Fin 1)] 0) List.Forall₂.nil, sdfs := rfl }
    refine usl_run_split_laws_partial (fn := ratFns) hs (fun _ => .dp _ _ _) 1 (st := exSandState) (st' := s) hr ?_
    intro i hi si hsi c hc _ b hb
    obtain rfl : i = 0 := by omega
    obtain rfl : s = si := by
      have h2 : uslCall ratFns exSandSolver exSandState = .ok si := hsi
      rw [hr] at h2
      exact Except.ok.inj h2
    obtain rfl : c = exCoupling .linear := by simpa [exSandSolver, exSolver] using hc
    refine .dp _ _ _ ?_
    have hb' : s.world.bodies 0 = .deformable b := hb
    simp only [hb'] at h
    exact of_decide_eq_true h

end Hydrax
