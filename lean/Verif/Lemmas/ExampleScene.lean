import Verif.Lemmas.ExampleBody
import Verif.Model.Forces
import Verif.Model.Asflip
import Verif.Model.LawTable

/-!
# Concrete scenes used in the examples and counterexamples
-/

namespace Hydrax

/-- Rational stand-ins for the transcendental functions (only used where they do not matter). -/
def ratFns : MathFns ℚ :=
  { sqrt := fun x => x, cbrt := fun x => x, sigmoid := fun _ => 1 / 2, exp := fun x => 1 + x
    log := fun x => x - 1, pow := fun x _ => x, sin := fun x => x, cos := fun _ => 1 }

/-- One body of two points, one grid, one law, one solver state, no obstacle. -/
abbrev exSz : Sz := { P := 1, G := 1, C := 1, S := 1, D := 0, np := fun _ => 2 }

def exCoupling (ker : Kernel) : Coupling exSz := { ker := ker, p := (0 : Fin 1), g := (0 : Fin 1), c := (0 : Fin 1), s := (0 : Fin 1), skip := false }

/-- Elastic body on a unit box with cell size 1/2, padding 2 and gravity on the grid. -/
def exSolver (ker : Kernel) (reset : Bool) : Solver exSz ℚ 2 Unit (LawState ℚ) (ForceState ℚ 2) :=
  { alpha := 99 / 100
    domains := fun _ => GridDomain.create (fun _ => 0) (fun _ => 1) (1 / 2) 2
    couplings := [exCoupling ker]
    laws := fun _ => elasticLaw 1000 (1 / 4) reset
    forces := [gravityForce true [] [(0 : Fin 1)] 0]
    sdfs := Fin.elim0
    sharpness := 10 }

def exState : SimState exSz ℚ 2 Unit (LawState ℚ) (ForceState ℚ 2) :=
  { world := { bodies := fun _ => .deformable exBody, sdfs := Fin.elim0 }
    mech := { laws := fun _ => .elastic fun _ => 0, solvers := fun _ _ => 0
              forces := [.gravity ![0, -10]] }
    time := 0
    step := 0
    dt := 1 / 100 }

theorem exSolver_forces (ker : Kernel) (reset : Bool) :
    (exSolver ker reset).forces = [gravityForce true [] [(0 : Fin 1)] 0] := rfl

/-- Read a number from a deformable body of the result of a call. -/
def probe {z : Sz} {K : Type*} {dim : ℕ} {SS LS FS : Type*} (r : Except PyErr (SimState z K dim SS LS FS))
    (p : Fin z.P) (f : MPState K dim (z.np p) → K) : Option K :=
  match r with
  | .error _ => none
  | .ok st =>
    match st.world.bodies p with
    | .deformable s => some (f s)
    | .rigid _ => none

end Hydrax
