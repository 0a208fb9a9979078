import Verif.Lemmas.TransferBox
import Verif.Lemmas.ExampleBody
import Mathlib.Algebra.BigOperators.Group.Finset.Basic
import Mathlib.Logic.Equiv.Basic

/-!
# Property C22: results do not depend on particle numbering
-/

set_option linter.unusedSectionVars false

namespace Hydrax

section
variable {K : Type*} {dim n : ℕ}

/-- The body with its points renumbered: new point `q` is old point `π q`. -/
def MPState.renumber (π : Equiv.Perm (Fin n)) (s : MPState K dim n) : MPState K dim n :=
  { position := s.position ∘ π
    velocity := s.velocity ∘ π
    force := s.force ∘ π
    mass := s.mass ∘ π
    volume := s.volume ∘ π
    volume0 := s.volume0 ∘ π
    L := s.L ∘ π
    stress := s.stress ∘ π
    F := s.F ∘ π
    FStore := s.FStore.map (· ∘ π)
    volScalar := s.volScalar }

end

section
variable {K : Type*} [Field K] [LinearOrder K] [IsStrictOrderedRing K] [FloorRing K] {dim n : ℕ}

/-- A scatter over all interactions as a sum over points and stencil slots. -/
theorem scatterAdd_compute (ker : Kernel) (g : GridDomain K dim) (pos : Fin n → Fin dim → K)
    (F : Fin n → Interaction K → K) (j : ℕ) :
    scatterAdd (compute ker g pos).nodeHash (fun i => F ((compute ker g pos).pointId i)
        ⟨(compute ker g pos).nodeHash i, (compute ker g pos).shapeVal i,
         (compute ker g pos).shapeGrad i, (compute ker g pos).relDist i⟩) j
      = ∑ p, ∑ s : Fin (windowSize ker dim), if (computeSingle ker g (pos p) s).nodeHash = j then
          F p (computeSingle ker g (pos p) s) else 0 := by
  rw [← sum_interactions n (windowSize ker dim) (fun p s =>
    if (computeSingle ker g (pos p) s).nodeHash = j then F p (computeSingle ker g (pos p) s) else 0)]
  rfl

theorem scatterAdd_renumber (π : Equiv.Perm (Fin n)) (ker : Kernel) (g : GridDomain K dim)
    (pos : Fin n → Fin dim → K) (F : Fin n → Interaction K → K) (j : ℕ) :
    scatterAdd (compute ker g (pos ∘ π)).nodeHash (fun i => F (π ((compute ker g (pos ∘ π)).pointId i))
        ⟨(compute ker g (pos ∘ π)).nodeHash i, (compute ker g (pos ∘ π)).shapeVal i,
         (compute ker g (pos ∘ π)).shapeGrad i, (compute ker g (pos ∘ π)).relDist i⟩) j
      = scatterAdd (compute ker g pos).nodeHash (fun i => F ((compute ker g pos).pointId i)
        ⟨(compute ker g pos).nodeHash i, (compute ker g pos).shapeVal i,
         (compute ker g pos).shapeGrad i, (compute ker g pos).relDist i⟩) j := by
  rw [scatterAdd_compute ker g pos F, scatterAdd_compute ker g (pos ∘ π) (fun p I => F (π p) I)]
  exact Equiv.sum_comp π (fun p => ∑ s : Fin (windowSize ker dim),
    if (computeSingle ker g (pos p) s).nodeHash = j then F p (computeSingle ker g (pos p) s) else 0)

theorem pointSum_renumber (π : Equiv.Perm (Fin n)) (ker : Kernel) (g : GridDomain K dim)
    (pos : Fin n → Fin dim → K) (F : Fin n → Interaction K → K) (p : Fin n) :
    pointSum (compute ker g (pos ∘ π)) (fun i => F (π ((compute ker g (pos ∘ π)).pointId i))
        ⟨(compute ker g (pos ∘ π)).nodeHash i, (compute ker g (pos ∘ π)).shapeVal i,
         (compute ker g (pos ∘ π)).shapeGrad i, (compute ker g (pos ∘ π)).relDist i⟩) p
      = pointSum (compute ker g pos) (fun i => F ((compute ker g pos).pointId i)
        ⟨(compute ker g pos).nodeHash i, (compute ker g pos).shapeVal i,
         (compute ker g pos).shapeGrad i, (compute ker g pos).relDist i⟩) (π p) := by
  rw [pointSum_compute ker g pos F, pointSum_compute ker g (pos ∘ π) (fun p I => F (π p) I)]
  rfl

/-- **C22** (P2G). The nodal fields do not depend on the numbering of the points. -/
theorem p2g_renumber (π : Equiv.Perm (Fin n)) (ker : Kernel) (g : GridDomain K dim)
    (s : MPState K dim n) (gr : GridArrays K dim) :
    p2gBody (compute ker g (s.renumber π).position) (s.renumber π) gr
      = p2gBody (compute ker g s.position) s gr := by
  simp only [p2gBody, GridArrays.mk.injEq, true_and]
  refine ⟨?_, ?_, ?_⟩
  · funext j
    exact congrArg (gr.mass j + ·) (scatterAdd_renumber π ker g s.position
      (fun p I => I.shapeVal * 1 * s.mass p) j)
  · funext j a
    exact congrArg (gr.moment j a + ·) (scatterAdd_renumber π ker g s.position
      (fun p I => I.shapeVal * 1 * s.mass p * s.velocity p a) j)
  · funext j a
    exact congrArg (0 + ·) (scatterAdd_renumber π ker g s.position
      (fun p I => 1 * s.volume p * internTerm dim (s.stress p) I.shapeGrad a * 1
        + I.shapeVal * 1 * s.force p a) j)

/-- **C22** (G2P). Renumbering the points renumbers the result of every point. -/
theorem g2p_renumber (π : Equiv.Perm (Fin n)) (ker : Kernel) (g : GridDomain K dim)
    (s : MPState K dim n) (alpha dt : K) (ghost : Option (Fin n → Fin dim → K)) (gr : GridArrays K dim) :
    g2pBody alpha dt (compute ker g (s.renumber π).position) (ghost.map (· ∘ π)) gr (s.renumber π)
      = (g2pBody alpha dt (compute ker g s.position) ghost gr s).renumber π := by
  have hb : ∀ (f : ℕ → Fin dim → K),
      ∃ G : Fin n → Interaction K → Fin dim → K,
        (∀ i, ghostBlend (compute ker g s.position) ghost
          (fun i a => f ((compute ker g s.position).nodeHash i) a) i
          = G ((compute ker g s.position).pointId i) ⟨(compute ker g s.position).nodeHash i,
            (compute ker g s.position).shapeVal i, (compute ker g s.position).shapeGrad i,
            (compute ker g s.position).relDist i⟩) ∧
        (∀ i, ghostBlend (compute ker g (s.position ∘ π)) (ghost.map (· ∘ π))
          (fun i a => f ((compute ker g (s.position ∘ π)).nodeHash i) a) i
          = G (π ((compute ker g (s.position ∘ π)).pointId i)) ⟨(compute ker g (s.position ∘ π)).nodeHash i,
            (compute ker g (s.position ∘ π)).shapeVal i, (compute ker g (s.position ∘ π)).shapeGrad i,
            (compute ker g (s.position ∘ π)).relDist i⟩) := by
    intro f
    cases ghost with
    | none => exact ⟨fun _ I => f I.nodeHash, fun _ => rfl, fun _ => rfl⟩
    | some gh => exact ⟨fun p I a => f I.nodeHash a * 1 + gh p a * (1 - 1), fun _ => rfl, fun _ => rfl⟩
  obtain ⟨G, hG, hG'⟩ := hb (fun j a => nodeVel uslCutoff (gr.mass j) (gr.moment j a))
  obtain ⟨H, hH, hH'⟩ := hb (fun j a => nodeVel uslCutoff (gr.mass j) (gr.momentNt j a))
  have eD : ∀ p a, _ = _ := fun p a => pointSum_renumber π ker g s.position
    (fun p I => I.shapeVal * (H p I a - G p I a)) p
  have eV : ∀ p a, _ = _ := fun p a => pointSum_renumber π ker g s.position
    (fun p I => I.shapeVal * H p I a) p
  have eL : ∀ p j k, _ = _ := fun p (j k : Fin 3) => pointSum_renumber π ker g s.position
    (fun p I => I.shapeGrad j * -(pad3 (H p I) k)) p
  have hp : (s.renumber π).position = s.position ∘ π := rfl
  simp only [g2pBody, hp, hG, hG', hH, hH', eD, eV, eL]
  rfl

/-- **C22** (step). One body on its own grid, through P2G, any change of the nodal fields by time
integration, forces and obstacles, and G2P: the result is the renumbered result. -/
theorem step_renumber (π : Equiv.Perm (Fin n)) (ker : Kernel) (g : GridDomain K dim)
    (s : MPState K dim n) (alpha dt : K) (f : GridArrays K dim → GridArrays K dim) :
    g2pBody alpha dt (compute ker g (s.renumber π).position) none
        (f (p2gBody (compute ker g (s.renumber π).position) (s.renumber π) GridArrays.new)) (s.renumber π)
      = (g2pBody alpha dt (compute ker g s.position) none
        (f (p2gBody (compute ker g s.position) s GridArrays.new)) s).renumber π := by
  rw [p2g_renumber]
  exact g2p_renumber π ker g s alpha dt none _

end

example := step_renumber (Equiv.swap 0 1) .cubic (GridDomain.create (fun _ => (0:ℚ)) (fun _ => 1) (1/4))
  exBody (1/2) (1/100) (fun gr => gravityGrid ![0, -10] gr)
/-- Renumbering is not trivial: the first point of the renumbered example is the second one. -/
example : (exBody.renumber (Equiv.swap 0 1)).mass 0 = 2 := by decide +kernel

end Hydrax
