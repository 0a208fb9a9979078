import Verif.Lemmas.GridEmbed
import Verif.Lemmas.GridBox
import Verif.Lemmas.ExampleScene
import Verif.Props.Locality

/-!
# C157: the domain only has to be large enough

Two scenes differ only in the extent of their grids: other origins, other ends, other padding, but nodes on the same lattice. As long as
all windows of the points lie inside both grids, every call gives the same result or fails in the same way, and so do runs.
-/

set_option linter.unusedSectionVars false

namespace Hydrax
open Spec

section
variable {z : Sz} {K : Type*} [Field K] [LinearOrder K] [IsStrictOrderedRing K] [FloorRing K] {dim : ℕ} {SS LS : Type*}
  {sv : Solver z K dim SS LS (ForceState K dim)}

namespace Spec

/-- Every point of every coupled body has its whole window inside the grid of the coupling. -/
def WindowsInside (sv : Solver z K dim SS LS (ForceState K dim)) (w : World z K dim SS) : Prop :=
  ∀ c ∈ sv.couplings, ∀ q, StencilInside c.ker (sv.domains c.g) ((w.bodies c.p).position q)

/-- The same scene on other grids. -/
def onGrids (sv : Solver z K dim SS LS (ForceState K dim)) (dom' : Fin z.G → GridDomain K dim) : Solver z K dim SS LS (ForceState K dim) :=
  { sv with domains := dom' }

end Spec

theorem reset_place (w : World z K dim SS) (p : Fin z.P) : ((resetMaterialPoints sv w).bodies p).position = (w.bodies p).position := by
  simp only [resetMaterialPoints]
  split_ifs
  · cases w.bodies p <;> rfl
  · rfl

/-- Transfers of two scenes on one lattice. -/
theorem callWith_domain {dom' : Fin z.G → GridDomain K dim} {m : Fin z.G → Fin dim → ℤ}
    (hm : ∀ g, SameLattice (sv.domains g) (dom' g) (m g)) (hf : ∀ f ∈ sv.forces, LibForce f) (fn : MathFns K)
    {p2g p2g' g2p g2p' : Ctx z K dim SS LS (ForceState K dim) → K → K → Except PyErr (Ctx z K dim SS LS (ForceState K dim))}
    (hp : ∀ dt t x x', CtxEmb (fun g => Common (sv.domains g) (dom' g) (m g)) (fun g => renum (sv.domains g) (dom' g) (m g)) x x' →
      ExSym (CtxEmb (fun g => Common (sv.domains g) (dom' g) (m g)) (fun g => renum (sv.domains g) (dom' g) (m g))) (p2g x dt t) (p2g' x' dt t))
    (hg : ∀ dt t x x', CtxEmb (fun g => Common (sv.domains g) (dom' g) (m g)) (fun g => renum (sv.domains g) (dom' g) (m g)) x x' →
      ExSym (CtxEmb (fun g => Common (sv.domains g) (dom' g) (m g)) (fun g => renum (sv.domains g) (dom' g) (m g))) (g2p x dt t) (g2p' x' dt t))
    {st : SimState z K dim SS LS (ForceState K dim)} (h1 : WindowsInside sv st.world) (h2 : WindowsInside (onGrids sv dom') st.world) :
    callWith fn (onGrids sv dom') p2g' g2p' st = callWith fn sv p2g g2p st := by
  suffices H : ExSym (fun a b => b = a) (callWith fn sv p2g g2p st) (callWith fn (onGrids sv dom') p2g' g2p' st) by
    generalize callWith fn sv p2g g2p st = a at H ⊢
    generalize callWith fn (onGrids sv dom') p2g' g2p' st = b at H ⊢
    cases H with
    | ok h => rw [h]
    | error e => rfl
  unfold callWith
  change ExSym _ (andThen (kinematicUpdate sv st.world st.mech st.dt st.time) _) (andThen (kinematicUpdate sv st.world st.mech st.dt st.time) _)
  cases hk : kinematicUpdate sv st.world st.mech st.dt st.time with
  | error e => exact .error _
  | ok wm =>
    have hb := (kinematicUpdate_lib hf _ _ _ _ _ hk).1
    have hpos : ∀ p, ((resetMaterialPoints sv wm.1).bodies p).position = (st.world.bodies p).position := fun p => by
      rw [reset_place, hb]
    have start : CtxEmb (fun g => Common (sv.domains g) (dom' g) (m g)) (fun g => renum (sv.domains g) (dom' g) (m g))
        { world := resetMaterialPoints sv wm.1, mech := wm.2, cache := buildCache fn sv (resetMaterialPoints sv wm.1) st.dt }
        { world := resetMaterialPoints (onGrids sv dom') wm.1, mech := wm.2
          cache := buildCache fn (onGrids sv dom') (resetMaterialPoints (onGrids sv dom') wm.1) st.dt } := by
      refine ⟨rfl, rfl, ?_, fun g j hj => ⟨rfl, rfl, rfl, rfl⟩, rfl, ?_⟩
      · intro p g
        rw [buildCache_interactions, buildCache_interactions]
        refine conn_embed (sv := sv) (sv' := onGrids sv dom') rfl _ hm ?_ ?_ p g
        · intro c hc q; rw [hpos]; exact h1 c hc q
        · intro c hc q; rw [hpos]; exact h2 c hc q
      · intro g d j hj
        have e := renum_position (hm g) hj
        have e' := (hm g).cell
        simp only [buildCache, sdfGeom, onGrids, e, e']
        exact ⟨rfl, rfl, rfl, rfl⟩
    refine ExSym.andThen (hp _ _ _ _ start) fun x x' hx => ?_
    refine ExSym.andThen (integrate_embed (sv := sv) (sv' := onGrids sv dom') rfl rfl hf _ _ hx) fun x x' hx => ?_
    refine ExSym.andThen (hg _ _ _ _ hx) fun x x' hx => ?_
    refine ExSym.andThen (ExSym.foldE (R := CtxEmb _ _) (fun x x' c hx => law_embed fn sv.laws _ c hx) _ hx) fun x x' hx => ?_
    refine .ok ?_
    rw [hx.world, hx.mech]

theorem nodes_apart {dom' : Fin z.G → GridDomain K dim} {m : Fin z.G → Fin dim → ℤ} (g : Fin z.G) (i j : ℕ)
    (hi : Common (sv.domains g) (dom' g) (m g) i) (hj : Common (sv.domains g) (dom' g) (m g) j)
    (h : renum (sv.domains g) (dom' g) (m g) i = renum (sv.domains g) (dom' g) (m g) j) : i = j :=
  renum_inj hi hj h

/-- **C157** One call of `USLSolver`, with any laws, obstacles, friction, gravity and damping. -/
theorem call_domain {dom' : Fin z.G → GridDomain K dim} {m : Fin z.G → Fin dim → ℤ}
    (hm : ∀ g, SameLattice (sv.domains g) (dom' g) (m g)) (hf : ∀ f ∈ sv.forces, LibForce f) (fn : MathFns K)
    {st : SimState z K dim SS LS (ForceState K dim)} (h1 : WindowsInside sv st.world) (h2 : WindowsInside (onGrids sv dom') st.world) :
    uslCall fn (onGrids sv dom') st = uslCall fn sv st := by
  refine callWith_domain hm hf fn (fun dt t x x' hx => ?_) (fun dt t x x' hx => ?_) h1 h2
  · unfold uslP2g runHook
    refine ExSym.andThen (ExSym.foldE_mem _ (fun f hf' x x' hx => (libForce_embed (hf f hf') dt t hx).1) hx) fun x x' hx => ?_
    exact ExSym.foldE (R := CtxEmb _ _) (fun x x' c hx => p2gCoupling_embed nodes_apart c hx) _ hx
  · exact ExSym.foldE (R := CtxEmb _ _) (fun x x' c hx => g2pCoupling_embed _ dt c hx) _ hx

/-- **C157** One call of `USLAFLIP`. -/
theorem aflip_call_domain {dom' : Fin z.G → GridDomain K dim} {m : Fin z.G → Fin dim → ℤ}
    (hm : ∀ g, SameLattice (sv.domains g) (dom' g) (m g)) (hf : ∀ f ∈ sv.forces, LibForce f) (fn : MathFns K) (pr : AflipParams K)
    {st : SimState z K dim SS LS (ForceState K dim)} (h1 : WindowsInside sv st.world) (h2 : WindowsInside (onGrids sv dom') st.world) :
    aflipCall fn pr (onGrids sv dom') st = aflipCall fn pr sv st := by
  refine callWith_domain hm hf fn (fun dt t x x' hx => ?_) (fun dt t x x' hx => ?_) h1 h2
  · unfold aflipP2g runHook
    refine ExSym.andThen (ExSym.foldE_mem _ (fun f hf' x x' hx => (libForce_embed (hf f hf') dt t hx).1) hx) fun x x' hx => ?_
    exact ExSym.foldE (R := CtxEmb _ _) (fun x x' c hx => aflipP2gCoupling_embed nodes_apart (fun g => (hm g).cell) c hx) _ hx
  · exact ExSym.foldE (R := CtxEmb _ _) (fun x x' c hx => aflipG2pCoupling_embed fn pr (fun g => (hm g).cell) dt c hx) _ hx

theorem run_domain_of {call call' : SimState z K dim SS LS (ForceState K dim) → Except PyErr (SimState z K dim SS LS (ForceState K dim))}
    {P : SimState z K dim SS LS (ForceState K dim) → Prop} (hc : ∀ st, P st → call' st = call st) (n : ℕ)
    (st : SimState z K dim SS LS (ForceState K dim)) (hP : ∀ i < n, ∀ si, runSteps call i st = .ok si → P si) :
    runSteps call' n st = runSteps call n st := by
  induction n with
  | zero => rfl
  | succ n ih =>
    unfold runSteps
    rw [ih fun i hi => hP i (by omega)]
    cases hr : runSteps call n st with
    | error e => rfl
    | ok s => exact hc s (hP n (by omega) s hr)

/-- **C157** Runs of `USLSolver` of any length: it is enough that the run on the first grids never leaves what both have in common. -/
theorem run_domain {dom' : Fin z.G → GridDomain K dim} {m : Fin z.G → Fin dim → ℤ}
    (hm : ∀ g, SameLattice (sv.domains g) (dom' g) (m g)) (hf : ∀ f ∈ sv.forces, LibForce f) (fn : MathFns K) (n : ℕ)
    (st : SimState z K dim SS LS (ForceState K dim))
    (hfit : ∀ i < n, ∀ si, runSteps (uslCall fn sv) i st = .ok si → WindowsInside sv si.world ∧ WindowsInside (onGrids sv dom') si.world) :
    runSteps (uslCall fn (onGrids sv dom')) n st = runSteps (uslCall fn sv) n st :=
  run_domain_of (P := fun s => WindowsInside sv s.world ∧ WindowsInside (onGrids sv dom') s.world) (fun _ h => call_domain hm hf fn h.1 h.2) n st hfit

/-- **C157** Runs of `USLAFLIP`. -/
theorem aflip_run_domain {dom' : Fin z.G → GridDomain K dim} {m : Fin z.G → Fin dim → ℤ}
    (hm : ∀ g, SameLattice (sv.domains g) (dom' g) (m g)) (hf : ∀ f ∈ sv.forces, LibForce f) (fn : MathFns K) (pr : AflipParams K) (n : ℕ)
    (st : SimState z K dim SS LS (ForceState K dim))
    (hfit : ∀ i < n, ∀ si, runSteps (aflipCall fn pr sv) i st = .ok si → WindowsInside sv si.world ∧ WindowsInside (onGrids sv dom') si.world) :
    runSteps (aflipCall fn pr (onGrids sv dom')) n st = runSteps (aflipCall fn pr sv) n st :=
  run_domain_of (P := fun s => WindowsInside sv s.world ∧ WindowsInside (onGrids sv dom') s.world) (fun _ h => aflip_call_domain hm hf fn pr h.1 h.2) n st hfit

/-- Boxes as users give them: the origins are whole cells apart, ends and paddings are arbitrary. -/
theorem sameLattice_create (o e o' e' : Fin dim → K) (h : K) (hh : 0 < h) (p p' : ℕ) (k : Fin dim → ℤ) (ho : ∀ d, o' d = o d - k d * h) :
    SameLattice (GridDomain.create o e h p) (GridDomain.create o' e' h p') (fun d => k d + p' - p) where
  cell := rfl
  inv := rfl
  one := mul_one_div_cancel hh.ne'
  origin d := by
    simp only [GridDomain.create, ho]
    push_cast
    ring

/-- **C157** In the terms of the user: one box `[o, e]` and another `[o', e']` with the same cell size, origins whole cells apart, each padded
enough for the kernels. As long as the points stay inside both boxes, runs agree. -/
theorem run_boxes {o e o' e' : Fin z.G → Fin dim → K} {h : Fin z.G → K} (hh : ∀ g, 0 < h g) {p p' : Fin z.G → ℕ} {k : Fin z.G → Fin dim → ℤ}
    (ho : ∀ g d, o' g d = o g d - k g d * h g) (hs : ∀ g, sv.domains g = GridDomain.create (o g) (e g) (h g) (p g))
    (hpad : ∀ c ∈ sv.couplings, minPad c.ker ≤ p c.g ∧ minPad c.ker ≤ p' c.g) (hf : ∀ f ∈ sv.forces, LibForce f) (fn : MathFns K) (n : ℕ)
    (st : SimState z K dim SS LS (ForceState K dim))
    (hin : ∀ i < n, ∀ si, runSteps (uslCall fn sv) i st = .ok si → ∀ c ∈ sv.couplings, ∀ q,
      InBox (o c.g) (e c.g) ((si.world.bodies c.p).position q) ∧ InBox (o' c.g) (e' c.g) ((si.world.bodies c.p).position q)) :
    runSteps (uslCall fn (onGrids sv fun g => GridDomain.create (o' g) (e' g) (h g) (p' g))) n st = runSteps (uslCall fn sv) n st := by
  refine run_domain (m := fun g d => k g d + p' g - p g) (fun g => ?_) hf fn n st fun i hi si hsi => ⟨fun c hc q => ?_, fun c hc q => ?_⟩
  · rw [hs]; exact sameLattice_create _ _ _ _ _ (hh g) _ _ _ (ho g)
  · rw [hs]; exact stencilInside_of_inBox _ _ _ _ (hh _) _ (hpad c hc).1 _ (hin i hi si hsi c hc q).1
  · exact stencilInside_of_inBox _ _ _ _ (hh _) _ (hpad c hc).2 _ (hin i hi si hsi c hc q).2

end

/-! ### The pair of points in another box -/

/-- The box `[-3/2, 9/2]²` padded by three cells instead of `[0, 4]²` padded by two. -/
def widerSolver (ker : Kernel) : Solver exSz ℚ 2 Unit (LawState ℚ) (ForceState ℚ 2) :=
  onGrids (longSolver ker) fun _ => GridDomain.create (fun _ => -(3 / 2)) (fun _ => 9 / 2) (1 / 2) 3

example (ker : Kernel) (x v s : ℚ) (h0 : 0 ≤ x) (h1 : x ≤ 4) :
    uslCall ratFns (widerSolver ker) (longState x v s) = uslCall ratFns (longSolver ker) (longState x v s) := by
  have hb : ∀ q : Fin 2, InBox (fun _ => 0) (fun _ => 4) ((((longState x v s).world.bodies (0 : Fin 1)).position q : Fin 2 → ℚ)) := by
    intro q d
    change 0 ≤ (![![3 / 4, 1 / 2], ![x, 1 / 2]] : Fin 2 → Fin 2 → ℚ) q d ∧ (![![3 / 4, 1 / 2], ![x, 1 / 2]] : Fin 2 → Fin 2 → ℚ) q d ≤ 4
    fin_cases q <;> fin_cases d <;> norm_num [h0, h1]
  have hk : minPad ker ≤ 2 := by cases ker <;> decide
  refine call_domain (m := fun _ d => 3 + (3 : ℕ) - (2 : ℕ)) (fun g => ?_) (long_scene ker).forces ratFns ?_ ?_
  · exact sameLattice_create _ _ _ _ _ (by norm_num) 2 3 (fun _ => 3) fun d => by norm_num
  · intro c hc q
    obtain rfl : c = exCoupling ker := by simpa [longSolver, exSolver] using hc
    exact stencilInside_of_inBox _ _ _ _ (by norm_num) _ hk _ (hb q)
  · intro c hc q
    obtain rfl : c = exCoupling ker := by simpa [longSolver, exSolver, onGrids] using hc
    refine stencilInside_of_inBox _ _ _ _ (by norm_num) _ (hk.trans (by norm_num)) _ fun d => ?_
    obtain ⟨a, b⟩ := hb q d
    exact ⟨le_trans (by norm_num) a, le_trans b (by norm_num)⟩

/-- The box `[1, 4]²` without padding: the window of the near point is cut. -/
def cutSolver (ker : Kernel) : Solver exSz ℚ 2 Unit (LawState ℚ) (ForceState ℚ 2) :=
  onGrids (longSolver ker) fun _ => GridDomain.create (fun _ => 1) (fun _ => 4) (1 / 2) 0

set_option maxRecDepth 100000 in
/-- **C157** Being on one lattice is not enough: a box that cuts the window of a point changes its velocity, without any error. -/
theorem cut_window_matters :
    SameLattice ((longSolver .linear).domains (0 : Fin 1)) ((cutSolver .linear).domains (0 : Fin 1)) (fun _ => -2 + (0 : ℕ) - (2 : ℕ)) ∧
    (probe (uslCall ratFns (longSolver .linear) (longState 2 3 4)) (0 : Fin 1) (fun s => s.velocity (0 : Fin 2) 1)).isSome = true ∧
    (probe (uslCall ratFns (cutSolver .linear) (longState 2 3 4)) (0 : Fin 1) (fun s => s.velocity (0 : Fin 2) 1)).isSome = true ∧
    (probe (uslCall ratFns (longSolver .linear) (longState 2 3 4)) (0 : Fin 1) (fun s => s.velocity (0 : Fin 2) 1) ==
    probe (uslCall ratFns (cutSolver .linear) (longState 2 3 4)) (0 : Fin 1) (fun s => s.velocity (0 : Fin 2) 1)) = false := by
  refine ⟨sameLattice_create _ _ _ _ _ (by norm_num) 2 0 (fun _ => -2) fun d => by norm_num, ?_, ?_, ?_⟩ <;> decide +kernel

end Hydrax
