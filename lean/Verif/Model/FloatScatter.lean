import Verif.Model.Rounding
import Verif.Model.Usl

/-!
# The scatter in finite precision

`array.at[ids].add(values)` leaves the order of the additions open: XLA may add duplicates one after the other, by atomic operations in the
order the threads happen to run, or pairwise after sorting. The model takes any order: a binary tree of additions.
-/

namespace Hydrax

/-- An order of adding up the values of some indices. -/
inductive SumTree (ι : Type*) where
  | leaf (i : ι)
  | add (l r : SumTree ι)

namespace SumTree
variable {ι : Type*}

/-- What is added, from left to right. -/
def leaves : SumTree ι → List ι
  | leaf i => [i]
  | add l r => l.leaves ++ r.leaves

/-- Largest number of additions a value goes through. -/
def depth : SumTree ι → ℕ
  | leaf _ => 0
  | add l r => max l.depth r.depth + 1

/-- The sum, every addition followed by `rnd`. -/
def eval (rnd : ℚ → ℚ) (f : ι → ℚ) : SumTree ι → ℚ
  | leaf i => f i
  | add l r => rnd (l.eval rnd f + r.eval rnd f)

end SumTree

section
variable {dim n w : ℕ}

/-- `t` is an order of adding the contributions to node `j` to the value the array had before (`none`). -/
def SumsTo {m : ℕ} (target : Fin m → ℕ) (j : ℕ) (t : SumTree (Option (Fin m))) : Prop :=
  t.leaves.Perm (none :: ((List.finRange m).filter fun i => target i = j).map some)

instance {m : ℕ} (target : Fin m → ℕ) (j : ℕ) (t : SumTree (Option (Fin m))) : Decidable (SumsTo target j t) :=
  inferInstanceAs (Decidable (List.Perm _ _))

/-- `array.at[ids].add(values)` at one node, in finite precision and in the order `t` (usl.py:488-499, usl_asflip.py:263-273). -/
def scatterRounded (rnd : ℚ → ℚ) {m : ℕ} (init : ℚ) (val : Fin m → ℚ) (t : SumTree (Option (Fin m))) : ℚ :=
  t.eval rnd fun o => o.elim init val

/-- `weighted_mass_stack` (usl.py:465-468, usl_asflip.py:228-231): the shape value times the mask, then times the mass. -/
def wMassRounded (rnd : ℚ → ℚ) (c : InteractionCache ℚ n w) (m : Fin n → ℚ) (i : Fin (n * w)) : ℚ :=
  rnd (rnd (c.shapeVal i * c.cpicMask i) * m (c.pointId i))

/-- `weighted_moment_stack` (usl.py:469). -/
def wMomentRounded (rnd : ℚ → ℚ) (c : InteractionCache ℚ n w) (m : Fin n → ℚ) (v : Fin n → ℚ) (i : Fin (n * w)) : ℚ :=
  rnd (wMassRounded rnd c m i * v (c.pointId i))

/-- Nodal velocity (usl.py:600-609) in finite precision. -/
def nodeVelRounded (rnd : ℚ → ℚ) (cut m mom : ℚ) : ℚ := if m > cut then rnd (mom / m) else 0

end
end Hydrax
