import Verif.Model.Basic
import Mathlib.Data.Nat.Find

/-!
# Body generation

Model of `hydraxmpm/utils/generate_body.py`. The random generator is replaced by the list of points it
returns; floating point rounding is not modelled.
-/

namespace Hydrax

/-- `jnp.meshgrid(..., indexing="ij")` stacked and flattened (generate_body.py:51-55, 69-70): all
combinations, first axis slowest. -/
def meshPts {α : Type*} : (dim : ℕ) → (Fin dim → List α) → List (Fin dim → α)
  | 0, _ => [Fin.elim0]
  | d + 1, r => (r 0).flatMap fun x => (meshPts d fun a => r a.succ).map fun f => Fin.cons x f

/-- `int(np.ceil(ppc ** (1 / dim)))` (generate_body.py:61): the least `k` with `ppc ≤ k ^ dim`, searched up
to `ppc` (enough for `dim ≥ 1`). -/
def ptsPerDim (dim ppc : ℕ) : ℕ := ((List.range (ppc + 1)).find? fun k => ppc ≤ k ^ dim).getD 0

section
variable {K : Type*} [Field K] [LinearOrder K] [FloorRing K] {dim : ℕ}

/-- `lin` (generate_body.py:66): every second entry of `linspace(0, 1, 2 n + 1)` starting at the second. -/
def linOffsets (n : ℕ) : List K := (List.range n).map fun (k : ℕ) => (2 * (k : K) + 1) / (2 * n)

/-- `jnp.arange(s, e)` (generate_body.py:51). -/
def arange (s e : ℤ) : List ℤ := (List.range (e - s).toNat).map fun (k : ℕ) => s + k

/-- How candidate points are made (generate_body.py:16, 38-44). -/
inductive GenMode (K : Type*) (dim : ℕ)
  /-- `"random"` with both arguments given; carries the sampled points. -/
  | random (pts : List (Fin dim → K))
  /-- `"random"` without `num_particles` or `key`. -/
  | randomNoArgs
  | regular (cellSize : K) (ppc : ℕ)
  | gaussLegendre (cellSize : K) (ppc : ℕ)
  /-- Any other string, in particular the default `"uniform"` and the documented `"rejection"`. -/
  | other

/-- Candidates in regular mode (generate_body.py:47-76). The offsets are not multiplied by the cell size. -/
def regularCandidates (lo hi : Fin dim → K) (h : K) (ppc : ℕ) : List (Fin dim → K) :=
  let ranges := fun a => arange ⌊lo a / h⌋ ⌈hi a / h⌉
  let origins := (meshPts dim ranges).map fun (i : Fin dim → ℤ) a => (i a : K) * h
  let offsets := meshPts dim fun _ => linOffsets (K := K) (ptsPerDim dim ppc)
  origins.flatMap fun o => offsets.map fun f a => o a + f a

/-- `generate_particles_in_sdf` (generate_body.py:6-87) for the distance function `dist` of the obstacle in
its pose. In Gauss-Legendre mode `offsets` is `None` and is indexed (74); in unknown modes the candidates are
`None` when the distance is evaluated (78). -/
def generateParticles (dist : (Fin dim → K) → K) (lo hi : Fin dim → K) (mode : GenMode K dim) :
    Except PyErr (List (Fin dim → K)) :=
  match mode with
  | .random pts => .ok (pts.filter fun x => dist x < 0)
  | .randomNoArgs => .error .valueError
  | .regular h ppc => .ok ((regularCandidates lo hi h ppc).filter fun x => dist x < 0)
  | .gaussLegendre _ _ => .error .typeError
  | .other => .error .valueError

end
end Hydrax
