import Verif.Lemmas.LatKernel
import Verif.Model.Forces

/-!
# Transfers between points and grid under a symmetry of the lattice (helper lemmas)
-/

set_option linter.unusedSectionVars false

namespace Hydrax

open Spec

section
variable {K : Type*} [Field K] [LinearOrder K] [IsStrictOrderedRing K] [FloorRing K] {dim n w : ℕ}

/-- Image of a set of material points; point `p` becomes point `π p`. -/
def Spec.LatSym.mp (T : LatSym K dim) (h : dim ≤ 3) (π : Equiv.Perm (Fin n)) (s : MPState K dim n) : MPState K dim n :=
  { position := fun q => T.point (s.position (π.symm q))
    velocity := fun q => T.vec (s.velocity (π.symm q))
    force := fun q => T.vec (s.force (π.symm q))
    mass := fun q => s.mass (π.symm q)
    volume := fun q => s.volume (π.symm q)
    volume0 := fun q => s.volume0 (π.symm q)
    L := fun q => rotated (T.mat h) (s.L (π.symm q))
    stress := fun q => rotated (T.mat h) (s.stress (π.symm q))
    F := fun q => rotated (T.mat h) (s.F (π.symm q))
    FStore := s.FStore.map fun f q => rotated (T.mat h) (f (π.symm q))
    volScalar := s.volScalar }

/-- Image of a body. -/
def Spec.LatSym.body (T : LatSym K dim) (h : dim ≤ 3) (π : Equiv.Perm (Fin n)) : Body K dim n → Body K dim n
  | .deformable s => .deformable (T.mp h π s)
  | .rigid r => .rigid { position := fun q => T.point (r.position (π.symm q)), velocity := fun q => T.vec (r.velocity (π.symm q))
                         mass := fun q => r.mass (π.symm q), normal := fun q => T.vec (r.normal (π.symm q)) }

theorem LatSym.body_position (T : LatSym K dim) (h : dim ≤ 3) (π : Equiv.Perm (Fin n)) (b : Body K dim n) :
    (T.body h π b).position = fun q => T.point (b.position (π.symm q)) := by
  cases b <;> rfl

/-- One row of an interaction list. -/
def InteractionCache.row (c : InteractionCache K n w) (i : Fin (n * w)) : Interaction K :=
  ⟨c.nodeHash i, c.shapeVal i, c.shapeGrad i, c.relDist i⟩

/-- A quantity that vanishes with the weight. -/
def Vanishes (F : Interaction K → K) : Prop :=
  ∀ I : Interaction K, I.shapeVal = 0 → (I.shapeGrad = fun _ => 0) → F I = 0

/-- The sums over two interaction lists correspond. -/
structure LatSym.ListSym (T : LatSym K dim) (h : dim ≤ 3) (π : Equiv.Perm (Fin n)) (size : Fin dim → ℕ)
    (c c' : InteractionCache K n w) : Prop where
  one : ∀ i, c.cpicMask i = 1
  one' : ∀ i, c'.cpicMask i = 1
  lt : ∀ i, c.nodeHash i < ∏ d, size d
  sum : ∀ F : Interaction K → K, Vanishes F → ∀ q,
    ∑ i with c'.pointId i = q, F (c'.row i) = ∑ i with c.pointId i = π.symm q, F (T.inter h size (c.row i))

/-- Two sets of nodal arrays correspond on the nodes of the grid. -/
structure LatSym.GridSym (T : LatSym K dim) (size : Fin dim → ℕ) (a a' : GridArrays K dim) : Prop where
  mass : ∀ j, j < ∏ d, size d → a'.mass (T.row size j) = a.mass j
  moment : ∀ j, j < ∏ d, size d → a'.moment (T.row size j) = T.vec (a.moment j)
  momentNt : ∀ j, j < ∏ d, size d → a'.momentNt (T.row size j) = T.vec (a.momentNt j)
  force : ∀ j, j < ∏ d, size d → a'.force (T.row size j) = T.vec (a.force j)

variable (T : LatSym K dim) {h : dim ≤ 3}

theorem LatSym.compute_sym (hdim : dim = 2 ∨ dim = 3) (ker : Kernel) {g g' : GridDomain K dim} (hg : T.Maps g g')
    (π : Equiv.Perm (Fin n)) (pos : Fin n → Fin dim → K) :
    LatSym.ListSym T h π g.gridSize (compute ker g pos) (compute ker g' fun q => T.point (pos (π.symm q))) where
  one _ := rfl
  one' _ := rfl
  lt i := clipHash_lt g hg.pos _
  sum F hF p := by
    have a := compute_sum_point ker g' (fun q => T.point (pos (π.symm q))) p (fun _ I => F I)
    have b := compute_sum_point ker g pos (π.symm p) (fun _ I => F (T.inter h g.gridSize I))
    exact a.trans ((LatSym.slot_sum_map T hdim h ker hg (pos (π.symm p)) F hF).trans b.symm)

variable {π : Equiv.Perm (Fin n)} {size : Fin dim → ℕ} {c c' : InteractionCache K n w}

theorem LatSym.ListSym.total (hc : LatSym.ListSym T h π size c c') (G : Fin n → Interaction K → K) (hG : ∀ p, Vanishes (G p)) :
    ∑ i, G (π.symm (c'.pointId i)) (c'.row i) = ∑ i, G (c.pointId i) (T.inter h size (c.row i)) := by
  rw [← Finset.sum_fiberwise Finset.univ c'.pointId, ← Finset.sum_fiberwise Finset.univ c.pointId]
  rw [← Equiv.sum_comp π.symm (fun p => ∑ i with c.pointId i = p, G (c.pointId i) (T.inter h size (c.row i)))]
  refine Finset.sum_congr rfl fun q _ => ?_
  have e1 : ∀ i ∈ Finset.univ.filter (fun i => c'.pointId i = q),
      G (π.symm (c'.pointId i)) (c'.row i) = G (π.symm q) (c'.row i) := by
    intro i hi; rw [(Finset.mem_filter.mp hi).2]
  have e2 : ∀ i ∈ Finset.univ.filter (fun i => c.pointId i = π.symm q),
      G (c.pointId i) (T.inter h size (c.row i)) = G (π.symm q) (T.inter h size (c.row i)) := by
    intro i hi; rw [(Finset.mem_filter.mp hi).2]
  rw [Finset.sum_congr rfl e1, Finset.sum_congr rfl e2]
  exact hc.sum (G (π.symm q)) (hG (π.symm q)) q

theorem LatSym.ListSym.scatter (hc : LatSym.ListSym T h π size c c') (G : Fin n → Interaction K → K)
    (hG : ∀ p, Vanishes (G p)) {j : ℕ} (hj : j < ∏ d, size d) :
    scatterAdd c'.nodeHash (fun i => G (π.symm (c'.pointId i)) (c'.row i)) (T.row size j)
      = scatterAdd c.nodeHash (fun i => G (c.pointId i) (T.inter h size (c.row i))) j := by
  unfold scatterAdd
  have := LatSym.ListSym.total T hc (fun p I => if I.nodeHash = T.row size j then G p I else 0) (fun p I h1 h2 => by
    beta_reduce; rw [hG p I h1 h2]; simp)
  refine this.trans (Finset.sum_congr rfl fun i _ => ?_)
  have e : (T.inter h size (c.row i)).nodeHash = T.row size (c.nodeHash i) := rfl
  rw [e]
  by_cases he : c.nodeHash i = j
  · rw [if_pos he, if_pos (by rw [he])]
  · rw [if_neg he, if_neg fun e' => he (LatSym.row_inj T (hc.lt i) hj e')]

theorem LatSym.intern_map (σ : Mat3 K) (grad : Fin 3 → K) (a : Fin dim) :
    internTerm dim (rotated (T.mat h) σ) ((T.mat h).mulVec grad) a = T.vec (internTerm dim σ grad) a := by
  have e : ∀ (M : Mat3 K) (u : Fin 3 → K), internTerm dim M u = trunc3 dim (M.mulVec u) := fun _ _ => rfl
  rw [e, e, rotated_mulVec (LatSym.mat_orth T h), LatSym.trunc3_mat]

theorem LatSym.intern_zero (σ : Mat3 K) (a : Fin dim) : internTerm dim σ (fun _ => 0) a = 0 := by
  unfold internTerm trunc3
  split_ifs
  · simp
  · rfl

theorem LatSym.scatter_vec (c : InteractionCache K n w) (vals : Fin (n * w) → Fin dim → K) (j : ℕ) (a : Fin dim) :
    scatterAdd c.nodeHash (fun i => T.vec (vals i) a) j = T.vec (fun b => scatterAdd c.nodeHash (fun i => vals i b) j) a := by
  unfold scatterAdd
  rw [LatSym.vec_sum]
  refine Finset.sum_congr rfl fun i _ => ?_
  simp only [Spec.LatSym.vec]
  split_ifs <;> simp

/-- Particles to grid. -/
theorem LatSym.p2g_sym (hc : LatSym.ListSym T h π size c c') (s : MPState K dim n) {a a' : GridArrays K dim}
    (ha : LatSym.GridSym T size a a') : LatSym.GridSym T size (p2gBody c s a) (p2gBody c' (T.mp h π s) a') := by
  refine ⟨fun j hj => ?_, fun j hj => ?_, ha.momentNt, fun j hj => ?_⟩
  · have e := LatSym.ListSym.scatter T hc (fun p I => I.shapeVal * 1 * s.mass p) (fun p I h1 _ => by beta_reduce; rw [h1]; ring) hj
    simp only [p2gBody, ha.mass j hj, hc.one, hc.one']
    exact congrArg (a.mass j + ·) e
  · funext b
    have e := LatSym.ListSym.scatter T hc (fun p I => I.shapeVal * 1 * s.mass p * T.vec (s.velocity p) b)
      (fun p I h1 _ => by beta_reduce; rw [h1]; ring) hj
    simp only [p2gBody, ha.moment j hj, hc.one, hc.one']
    rw [LatSym.vec_add]
    refine congrArg (T.vec (a.moment j) b + ·) (e.trans ?_)
    have e2 := LatSym.scatter_vec T c (fun i x => c.shapeVal i * 1 * s.mass (c.pointId i) * s.velocity (c.pointId i) x) j b
    rw [← e2]
    congr 1
    funext i
    exact (LatSym.vec_smul T _ _ b).symm
  · funext b
    have e := LatSym.ListSym.scatter T hc (fun p I => 1 * s.volume p * internTerm dim (rotated (T.mat h) (s.stress p)) I.shapeGrad b * 1
        + I.shapeVal * 1 * T.vec (s.force p) b)
      (fun p I h1 h2 => by beta_reduce; rw [h1, h2, LatSym.intern_zero]; ring) hj
    simp only [p2gBody, hc.one, hc.one']
    rw [LatSym.vec_add]
    have z : T.vec (fun _ => (0 : K)) b = 0 := congrFun (LatSym.vec_zero T) b
    rw [z]
    refine congrArg ((0 : K) + ·) (e.trans ?_)
    have e2 := LatSym.scatter_vec T c (fun i x => 1 * s.volume (c.pointId i) * internTerm dim (s.stress (c.pointId i)) (c.shapeGrad i) x * 1
        + c.shapeVal i * 1 * s.force (c.pointId i) x) j b
    rw [← e2]
    congr 1
    funext i
    show 1 * s.volume (c.pointId i) * internTerm dim (rotated (T.mat h) (s.stress (c.pointId i))) ((T.mat h).mulVec (c.shapeGrad i)) b * 1
        + c.shapeVal i * 1 * T.vec (s.force (c.pointId i)) b = _
    rw [LatSym.intern_map]
    simp only [Spec.LatSym.vec]
    ring

theorem LatSym.integrate_sym (dt : K) {a a' : GridArrays K dim} (ha : LatSym.GridSym T size a a') :
    LatSym.GridSym T size (integrateBody dt a) (integrateBody dt a') := by
  refine ⟨ha.mass, ha.moment, fun j hj => ?_, ha.force⟩
  funext b
  simp only [integrateBody, ha.moment j hj, ha.force j hj, Spec.LatSym.vec]
  ring

theorem LatSym.nodeVel_vec (cut m : K) (v : Fin dim → K) (a : Fin dim) :
    nodeVel cut m (T.vec v a) = T.vec (fun b => nodeVel cut m (v b)) a := by
  unfold nodeVel Spec.LatSym.vec
  split_ifs
  · ring
  · ring

theorem LatSym.ghost_one (hone : ∀ i, c.cpicMask i = 1) (ghost : Option (Fin n → Fin dim → K))
    (v : Fin (n * w) → Fin dim → K) : ghostBlend c ghost v = v := by
  cases ghost with
  | none => rfl
  | some gh =>
    funext i a
    simp only [ghostBlend, hone]
    ring

theorem LatSym.pointSum_vec (c : InteractionCache K n w) (vals : Fin (n * w) → Fin dim → K) (p : Fin n) (a : Fin dim) :
    pointSum c (fun i => T.vec (vals i) a) p = T.vec (fun b => pointSum c (fun i => vals i b) p) a := by
  unfold pointSum
  rw [LatSym.vec_sum]

/-- Interpolated velocities of the image. -/
theorem LatSym.gather_sym (hc : LatSym.ListSym T h π size c c') {m m' : ℕ → K} {q q' : ℕ → Fin dim → K} (cut : K)
    (hm : ∀ j, j < ∏ d, size d → m' (T.row size j) = m j)
    (hq : ∀ j, j < ∏ d, size d → q' (T.row size j) = T.vec (q j)) (p : Fin n) (a : Fin dim) :
    pointSum c' (fun i => c'.shapeVal i * nodeVel cut (m' (c'.nodeHash i)) (q' (c'.nodeHash i) a)) p
      = T.vec (fun b => pointSum c (fun i => c.shapeVal i * nodeVel cut (m (c.nodeHash i)) (q (c.nodeHash i) b)) (π.symm p)) a := by
  have e := hc.sum (fun I => I.shapeVal * nodeVel cut (m' I.nodeHash) (q' I.nodeHash a)) (fun I h1 _ => by beta_reduce; rw [h1, zero_mul]) p
  refine e.trans ?_
  rw [← LatSym.pointSum_vec]
  refine Finset.sum_congr rfl fun i _ => ?_
  show c.shapeVal i * nodeVel cut (m' (T.row size (c.nodeHash i))) (q' (T.row size (c.nodeHash i)) a) = _
  rw [hm _ (hc.lt i), hq _ (hc.lt i), LatSym.nodeVel_vec]
  simp only [Spec.LatSym.vec]
  ring

/-- Velocity gradients of the image. -/
theorem LatSym.gatherL_sym (hc : LatSym.ListSym T h π size c c') {m m' : ℕ → K} {q q' : ℕ → Fin dim → K} (cut : K)
    (hm : ∀ j, j < ∏ d, size d → m' (T.row size j) = m j)
    (hq : ∀ j, j < ∏ d, size d → q' (T.row size j) = T.vec (q j)) (p : Fin n) :
    (fun x y => pointSum c' (fun i => c'.shapeGrad i x * -(pad3 (fun b => nodeVel cut (m' (c'.nodeHash i)) (q' (c'.nodeHash i) b)) y)) p)
      = rotated (T.mat h) (fun x y =>
        pointSum c (fun i => c.shapeGrad i x * -(pad3 (fun b => nodeVel cut (m (c.nodeHash i)) (q (c.nodeHash i) b)) y)) (π.symm p)) := by
  apply LatSym.ext33 T h
  intro x y
  refine Eq.trans ?_ (LatSym.rot_apply T h _ x y).symm
  have e := hc.sum (fun I => I.shapeGrad (T.p3 h x) * -(pad3 (fun b => nodeVel cut (m' I.nodeHash) (q' I.nodeHash b)) (T.p3 h y)))
    (fun I _ h2 => by beta_reduce; rw [h2, zero_mul]) p
  refine e.trans ?_
  unfold pointSum
  rw [Finset.mul_sum]
  refine Finset.sum_congr rfl fun i _ => ?_
  show (T.mat h).mulVec (c.shapeGrad i) (T.p3 h x)
    * -(pad3 (fun b => nodeVel cut (m' (T.row size (c.nodeHash i))) (q' (T.row size (c.nodeHash i)) b)) (T.p3 h y)) = _
  have e2 : (fun b => nodeVel cut (m' (T.row size (c.nodeHash i))) (q' (T.row size (c.nodeHash i)) b))
      = T.vec (fun b => nodeVel cut (m (c.nodeHash i)) (q (c.nodeHash i) b)) := by
    funext b
    rw [hm _ (hc.lt i), hq _ (hc.lt i), LatSym.nodeVel_vec]
  rw [e2, LatSym.pad3_vec T h, LatSym.mat_mulVec, LatSym.mat_mulVec]
  ring

/-- Grid to particles. -/
theorem LatSym.g2p_sym (hc : LatSym.ListSym T h π size c c') (alpha dt : K) (gh gh' : Option (Fin n → Fin dim → K))
    (s : MPState K dim n) {a a' : GridArrays K dim} (ha : LatSym.GridSym T size a a') :
    g2pBody alpha dt c' gh' a' (T.mp h π s) = T.mp h π (g2pBody alpha dt c gh a s) := by
  have eN := fun p b => LatSym.gather_sym T hc uslCutoff ha.mass ha.momentNt p b
  have eV := fun p b => LatSym.gather_sym T hc uslCutoff ha.mass ha.moment p b
  have eL := fun p => LatSym.gatherL_sym T hc uslCutoff ha.mass ha.momentNt p
  have eD : ∀ p b, pointSum c' (fun i => c'.shapeVal i * (nodeVel uslCutoff (a'.mass (c'.nodeHash i)) (a'.momentNt (c'.nodeHash i) b)
        - nodeVel uslCutoff (a'.mass (c'.nodeHash i)) (a'.moment (c'.nodeHash i) b))) p
      = T.vec (fun x => pointSum c (fun i => c.shapeVal i * (nodeVel uslCutoff (a.mass (c.nodeHash i)) (a.momentNt (c.nodeHash i) x)
        - nodeVel uslCutoff (a.mass (c.nodeHash i)) (a.moment (c.nodeHash i) x))) (π.symm p)) b := by
    intro p b
    have e1 : ∀ {m : ℕ} (c : InteractionCache K n m) (f g : Fin (n * m) → K) (p : Fin n),
        pointSum c (fun i => c.shapeVal i * (f i - g i)) p
        = pointSum c (fun i => c.shapeVal i * f i) p - pointSum c (fun i => c.shapeVal i * g i) p := by
      intro m c f g p
      unfold pointSum
      rw [← Finset.sum_sub_distrib]
      exact Finset.sum_congr rfl fun i _ => by ring
    rw [e1, eN, eV, ← LatSym.vec_sub]
    congr 1
    funext x
    exact (e1 c _ _ _).symm
  have orth := LatSym.mat_orth T h
  -- velocity gradient with the plane-strain correction
  have eP : ∀ (p : Fin n) (M : Mat3 K), (if dim = 2 then set22 (rotated (T.mat h) M) 0 else rotated (T.mat h) M)
      = rotated (T.mat h) (if dim = 2 then set22 M 0 else M) := by
    intro p M; split_ifs with h2
    · exact LatSym.set22_rot T h h2 M 0
    · rfl
  have eF : ∀ (p : Fin n) (L : Mat3 K),
      (if dim = 2 then set22 ((1 - dt • rotated (T.mat h) L) * rotated (T.mat h) (s.F p)) 1
        else (1 - dt • rotated (T.mat h) L) * rotated (T.mat h) (s.F p))
      = rotated (T.mat h) (if dim = 2 then set22 ((1 - dt • L) * s.F p) 1 else (1 - dt • L) * s.F p) := by
    intro p L
    have e0 : (1 - dt • rotated (T.mat h) L) * rotated (T.mat h) (s.F p) = rotated (T.mat h) ((1 - dt • L) * s.F p) := by
      rw [rotated_mul orth, rotated_sub, rotated_one orth, rotated_smul]
    rw [e0]
    split_ifs with h2
    · exact LatSym.set22_rot T h h2 _ 1
    · rfl
  have kL : ∀ (p : Fin n) (A B : Mat3 K), A = rotated (T.mat h) B →
      (if dim = 2 then set22 A 0 else A) = rotated (T.mat h) (if dim = 2 then set22 B 0 else B) := by
    intro p A B e; rw [e]; exact eP p B
  have kF : ∀ (p : Fin n) (A B : Mat3 K), A = rotated (T.mat h) B →
      (if dim = 2 then set22 ((1 - dt • if dim = 2 then set22 A 0 else A) * rotated (T.mat h) (s.F p)) 1
        else (1 - dt • if dim = 2 then set22 A 0 else A) * rotated (T.mat h) (s.F p))
      = rotated (T.mat h) (if dim = 2 then set22 ((1 - dt • if dim = 2 then set22 B 0 else B) * s.F p) 1
        else (1 - dt • if dim = 2 then set22 B 0 else B) * s.F p) := by
    intro p A B e; rw [kL p A B e]; exact eF p _
  have kV : ∀ (p : Fin n) (A B : Mat3 K), A = rotated (T.mat h) B →
      (if dim = 2 then set22 ((1 - dt • if dim = 2 then set22 A 0 else A) * rotated (T.mat h) (s.F p)) 1
        else (1 - dt • if dim = 2 then set22 A 0 else A) * rotated (T.mat h) (s.F p)).det * s.volume0 p
      = (if dim = 2 then set22 ((1 - dt • if dim = 2 then set22 B 0 else B) * s.F p) 1
        else (1 - dt • if dim = 2 then set22 B 0 else B) * s.F p).det * s.volume0 p := by
    intro p A B e; rw [kF p A B e, det_rotated orth]
  unfold g2pBody Spec.LatSym.mp
  simp only [LatSym.ghost_one hc.one, LatSym.ghost_one hc.one', MPState.mk.injEq, true_and, and_true]
  refine ⟨?_, ?_, ?_, ?_, ?_⟩
  · funext p b
    rw [eN]
    simp only [Spec.LatSym.point, Spec.LatSym.vec]
    ring
  · funext p b
    rw [eN, eD]
    simp only [Spec.LatSym.vec]
    ring
  · funext p
    exact kV (π.symm p) _ _ (eL p)
  · funext p
    exact kL (π.symm p) _ _ (eL p)
  · funext p
    exact kF (π.symm p) _ _ (eL p)

end
end Hydrax
