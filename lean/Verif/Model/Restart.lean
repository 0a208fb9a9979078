import Verif.Model.SimIO
import Verif.Model.LawTable
import Verif.Model.Usl
import Verif.Lemmas.ExampleScene

/-!
# Recording a run and going on from a saved state

The main loop of a script that records its states as the usage notes of `SimIO` describe (sim_io.py:22-53). A pytree is
taken apart into what Equinox saves, the leaves, and what it does not, the fields marked `static`; taking it apart loses
nothing. Not modelled: the encoding of a leaf, asynchronous callbacks (states are saved in the order of their steps).
-/

namespace Hydrax

/-- A class of pytrees: `jax.tree_util.tree_flatten` and `tree_unflatten`. -/
structure Pytree (σ St L : Type*) where
  flatten : σ → Tree St L
  unflatten : Tree St L → σ
  left_inv : ∀ x, unflatten (flatten x) = x

/-- The loop `for i in range(n): state = solver(state); recorder.save_step(state)`, saving the states whose number is selected by
`rec` (sim_io.py:35-42). -/
def recordedRun {σ St L : Type*} (call : σ → Except PyErr σ) (C : Pytree σ St L) (stepOf : σ → ℤ) (rec : ℤ → Bool) :
    ℕ → σ × Dir L → Except PyErr (σ × Dir L)
  | 0, x => .ok x
  | n + 1, x => andThen (recordedRun call C stepOf rec n x) fun y => andThen (call y.1) fun s =>
      .ok (s, if rec (stepOf s) then runPrims y.2 (saveStepPrims ⟨stepOf s, C.flatten s⟩) else y.2)

/-- The settings of a solver for one elastic body. `alpha` and the grid are `static` fields (usl.py:67-69, grid.py:31-37), the
moduli of the law are not (linearelastic.py:58-62; `G`, `K` and `lam` follow from these two and are left out). -/
structure ElasticSolver (K : Type*) where
  alpha : K
  cellSize : K
  E : K
  nu : K

/-- The solver as a pytree: the static fields are not among the leaves that `save_solver` writes (sim_io.py:88-112). -/
def elasticPytree (K : Type*) [Zero K] : Pytree (ElasticSolver K) (K × K) K where
  flatten s := ⟨(s.alpha, s.cellSize), [s.E, s.nu]⟩
  unflatten t := ⟨t.static.1, t.static.2, t.leaves.getD 0 0, t.leaves.getD 1 0⟩
  left_inv _ := rfl

/-- The solver of the example scene with these settings. -/
def ElasticSolver.build (s : ElasticSolver ℚ) : Solver exSz ℚ 2 Unit (LawState ℚ) (ForceState ℚ 2) :=
  { exSolver .linear false with
    alpha := s.alpha
    domains := fun _ => GridDomain.create (fun _ => 0) (fun _ => 1) s.cellSize 2
    laws := fun _ => elasticLaw s.E s.nu false }

end Hydrax
