import Verif.Props.WholeCells
import Verif.Props.LatticeAflip

/-!
# C158 for the ASFLIP solver

The affine matrices of the points are kept by the solver and do not change when the scene is moved.
-/

set_option linter.unusedSectionVars false

namespace Hydrax
open Spec

section
variable {z : Sz} {K : Type*} [Field K] [LinearOrder K] [IsStrictOrderedRing K] [FloorRing K] {dim : ℕ} {SS : Type*}
  {sv : Solver z K dim SS (LawState K) (ForceState K dim)} {t : Fin dim → K} {τ : Fin z.D → SS → SS}

theorem shiftSym_stateB (t : Fin dim → K) (h : dim ≤ 3) (τ : Fin z.D → SS → SS) (st : SimState z K dim SS (LawState K) (ForceState K dim)) :
    ((shiftSym t).sceneB h (fun _ => Equiv.refl _) (fun _ => Equiv.refl ℕ) (fun _ => Equiv.refl ℕ) τ).state st = sceneAt t τ st := by
  have e : (shiftSym t).sceneB h (fun p : Fin z.P => Equiv.refl (Fin (z.np p))) (fun _ => Equiv.refl ℕ) (fun _ => Equiv.refl ℕ) τ =
      (shiftSym t).scene h (fun _ => Equiv.refl _) (fun _ => Equiv.refl ℕ) τ := by
    unfold Spec.LatSym.sceneB
    simp only [shiftSym_mat, rotated_by_one]
    rfl
  rw [e, shiftSym_state]

/-- **C158 (ASFLIP)** One step. -/
theorem aflip_whole_cells (hdim : dim = 2 ∨ dim = 3) (hg : GridsProper sv) (hl : ∀ c, LibLaw (sv.laws c)) (hf : ∀ f ∈ sv.forces, LibForce f)
    (hown : ∀ c ∈ sv.couplings, c.skip = false → c.s.val = c.p.val) (ht : WholeCells sv t) (hτ : ∀ d, Moves t (τ d) (sv.sdfs d))
    (fn : MathFns K) (pr : AflipParams K) {st : SimState z K dim SS (LawState K) (ForceState K dim)} (h1 : WindowsInside sv st.world)
    (h2 : WindowsInside sv (sceneAt t τ st).world) :
    aflipCall fn pr sv (sceneAt t τ st) = (aflipCall fn pr sv st).map (sceneAt t τ) := by
  have h3 : dim ≤ 3 := by rcases hdim with h | h <;> omega
  have e := aflip_symmetric (h := h3) (τ := fun _ : Fin z.S => Equiv.refl ℕ)
    { toImage := shiftSym_image hdim hg hl hf hτ, own := hown, numbersB := fun _ _ _ _ => rfl } fn pr st
  have hs : ((shiftSym t).sceneB h3 (fun p => Equiv.refl (Fin (z.np p))) (fun _ : Fin z.C => Equiv.refl ℕ) (fun _ : Fin z.S => Equiv.refl ℕ) τ).state =
      sceneAt t τ := funext fun st => shiftSym_stateB t h3 τ st
  rw [hs] at e
  exact (aflip_call_domain (lattice_domAt hg ht) hf fn pr h2 (fits_domAt h1)).symm.trans e

/-- **C158 (ASFLIP)** Runs of any length. -/
theorem aflip_whole_cells_run (hdim : dim = 2 ∨ dim = 3) (hg : GridsProper sv) (hl : ∀ c, LibLaw (sv.laws c)) (hf : ∀ f ∈ sv.forces, LibForce f)
    (hown : ∀ c ∈ sv.couplings, c.skip = false → c.s.val = c.p.val) (ht : WholeCells sv t) (hτ : ∀ d, Moves t (τ d) (sv.sdfs d))
    (fn : MathFns K) (pr : AflipParams K) (n : ℕ) (st : SimState z K dim SS (LawState K) (ForceState K dim))
    (hfit : ∀ i < n, ∀ si, runSteps (aflipCall fn pr sv) i st = .ok si → WindowsInside sv si.world ∧ WindowsInside sv (sceneAt t τ si).world) :
    runSteps (aflipCall fn pr sv) n (sceneAt t τ st) = (runSteps (aflipCall fn pr sv) n st).map (sceneAt t τ) := by
  induction n with
  | zero => rfl
  | succ n ih =>
    unfold runSteps
    rw [ih fun i hi => hfit i (by omega)]
    cases hr : runSteps (aflipCall fn pr sv) n st with
    | error e => rfl
    | ok s =>
      have := hfit n (by omega) s hr
      exact aflip_whole_cells hdim hg hl hf hown ht hτ fn pr this.1 this.2

end

/-- The example scene, one cell further right, with ASFLIP transfers. -/
example (pr : AflipParams ℚ) : aflipCall ratFns pr (exSolver .linear false) (sceneAt ![1 / 2, 0] Fin.elim0 exState) =
    (aflipCall ratFns pr (exSolver .linear false) exState).map (sceneAt ![1 / 2, 0] Fin.elim0) := by
  refine aflip_whole_cells (.inl rfl) (ex_grids _ _) (fun _ => .elastic _ _ _) ?_ ?_ ?_ (fun d => Fin.elim0 d) ratFns pr (exFits0 ?_) (exFits ?_)
  · intro f hf
    rw [exSolver_forces, List.mem_singleton] at hf; subst hf; exact .gravity _ _ _ _
  · intro c hc _
    obtain rfl : c = exCoupling .linear := by simpa [exSolver] using hc
    rfl
  · intro g d
    fin_cases d
    · exact ⟨1, by simp [exSolver, GridDomain.create]⟩
    · exact ⟨0, by simp⟩
  · decide +kernel
  · decide +kernel

end Hydrax
