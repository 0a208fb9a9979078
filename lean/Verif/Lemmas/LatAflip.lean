import Verif.Lemmas.LatScene
import Verif.Model.Asflip

/-!
# The ASFLIP solver under a symmetry of the lattice (helper lemmas)
-/

set_option linter.unusedSectionVars false

namespace Hydrax

open Spec

section
variable {K : Type*} [Field K] [LinearOrder K] [IsStrictOrderedRing K] [FloorRing K] {dim n w : ℕ}
variable (T : LatSym K dim) {h : dim ≤ 3} {π : Equiv.Perm (Fin n)} {size : Fin dim → ℕ} {c c' : InteractionCache K n w}

theorem LatSym.affine_map (A : Mat3 K) (u : Fin 3 → K) (cell : K) (a : Fin dim) :
    trunc3 dim (fun r => ∑ k, rotated (T.mat h) A r k * (-1 * (T.mat h).mulVec u k * cell)) a
      = T.vec (trunc3 dim fun r => ∑ k, A r k * (-1 * u k * cell)) a := by
  have e1 : (fun k => -1 * (T.mat h).mulVec u k * cell) = (T.mat h).mulVec fun k => -1 * u k * cell := by
    have : (fun k => -1 * u k * cell) = (-cell) • u := by funext k; simp only [Pi.smul_apply, smul_eq_mul]; ring
    rw [this, Matrix.mulVec_smul]
    funext k; simp only [Pi.smul_apply, smul_eq_mul]; ring
  have e2 : (fun r => ∑ k, rotated (T.mat h) A r k * (-1 * (T.mat h).mulVec u k * cell))
      = (rotated (T.mat h) A).mulVec ((T.mat h).mulVec fun k => -1 * u k * cell) := by
    rw [← e1]; rfl
  rw [e2, rotated_mulVec (LatSym.mat_orth T h), LatSym.trunc3_mat]
  rfl

/-- Particles to grid. -/
theorem LatSym.aflipP2g_sym (hc : LatSym.ListSym T h π size c c') (cell : K) (B : Fin n → Mat3 K) (s : MPState K dim n)
    {a a' : GridArrays K dim} (ha : LatSym.GridSym T size a a') :
    LatSym.GridSym T size (aflipP2gBody cell c B s a)
      (aflipP2gBody cell c' (fun q => rotated (T.mat h) (B (π.symm q))) (T.mp h π s) a') := by
  have hp := LatSym.p2g_sym T hc s ha
  refine ⟨hp.mass, fun j hj => ?_, hp.momentNt, hp.force⟩
  funext b
  have e := LatSym.ListSym.scatter T hc (fun p I => I.shapeVal * 1 * s.mass p * (T.vec (s.velocity p) b
      - trunc3 dim (fun r => ∑ k, rotated (T.mat h) (B p) r k * (-1 * I.relDist k * cell)) b))
    (fun p I h1 _ => by beta_reduce; rw [h1]; ring) hj
  simp only [aflipP2gBody, distPhys, ha.moment j hj, hc.one, hc.one']
  rw [LatSym.vec_add]
  refine congrArg (T.vec (a.moment j) b + ·) (e.trans ?_)
  have e2 := LatSym.scatter_vec T c (fun i x => c.shapeVal i * 1 * s.mass (c.pointId i) * (s.velocity (c.pointId i) x
      - trunc3 dim (fun r => ∑ k, B (c.pointId i) r k * (-1 * c.relDist i k * cell)) x)) j b
  rw [← e2]
  congr 1
  funext i
  show c.shapeVal i * 1 * s.mass (c.pointId i) * (T.vec (s.velocity (c.pointId i)) b
      - trunc3 dim (fun r => ∑ k, rotated (T.mat h) (B (c.pointId i)) r k * (-1 * (T.mat h).mulVec (c.relDist i) k * cell)) b) = _
  rw [LatSym.affine_map]
  simp only [Spec.LatSym.vec]
  ring

/-- The affine matrix of the image. -/
theorem LatSym.gatherB_sym (hc : LatSym.ListSym T h π size c c') {m m' : ℕ → K} {q q' : ℕ → Fin dim → K} (cut : K)
    (hm : ∀ j, j < ∏ d, size d → m' (T.row size j) = m j)
    (hq : ∀ j, j < ∏ d, size d → q' (T.row size j) = T.vec (q j)) (p : Fin n) :
    (fun x y => pointSum c' (fun i => -(pad3 (fun b => nodeVel cut (m' (c'.nodeHash i)) (q' (c'.nodeHash i) b)) x * c'.shapeGrad i y)) p)
      = rotated (T.mat h) (fun x y =>
        pointSum c (fun i => -(pad3 (fun b => nodeVel cut (m (c.nodeHash i)) (q (c.nodeHash i) b)) x * c.shapeGrad i y)) (π.symm p)) := by
  apply LatSym.ext33 T h
  intro x y
  refine Eq.trans ?_ (LatSym.rot_apply T h _ x y).symm
  have e := hc.sum (fun I => -(pad3 (fun b => nodeVel cut (m' I.nodeHash) (q' I.nodeHash b)) (T.p3 h x) * I.shapeGrad (T.p3 h y)))
    (fun I _ h2 => by beta_reduce; rw [h2, mul_zero, neg_zero]) p
  refine e.trans ?_
  unfold pointSum
  rw [Finset.mul_sum]
  refine Finset.sum_congr rfl fun i _ => ?_
  show -(pad3 (fun b => nodeVel cut (m' (T.row size (c.nodeHash i))) (q' (T.row size (c.nodeHash i)) b)) (T.p3 h x)
    * (T.mat h).mulVec (c.shapeGrad i) (T.p3 h y)) = _
  have e2 : (fun b => nodeVel cut (m' (T.row size (c.nodeHash i))) (q' (T.row size (c.nodeHash i)) b))
      = T.vec (fun b => nodeVel cut (m (c.nodeHash i)) (q (c.nodeHash i) b)) := by
    funext b
    rw [hm _ (hc.lt i), hq _ (hc.lt i), LatSym.nodeVel_vec]
  rw [e2, LatSym.pad3_vec T h, LatSym.mat_mulVec, LatSym.mat_mulVec]
  ring

theorem LatSym.vec_norm (v : Fin dim → K) : ∑ a, T.vec v a ^ 2 = ∑ a, v a ^ 2 := by
  have := LatSym.vec_dot T v v
  simpa only [pow_two] using this

theorem LatSym.clamp_sym (sqrt : K → K) (cfl cell dt : K) (v : Fin dim → K) :
    clampFactor sqrt cfl cell dt (T.vec v) = clampFactor sqrt cfl cell dt v := by
  unfold clampFactor
  rw [LatSym.vec_norm]

theorem LatSym.dynAlpha_sym (hc : LatSym.ListSym T h π size c c') (pr : AflipParams K) (s : MPState K dim n)
    {a a' : GridArrays K dim} (ha : LatSym.GridSym T size a a') (p : Fin n) :
    dynAlpha pr c' a' (T.mp h π s) p = dynAlpha pr c a s (π.symm p) := by
  have e := hc.sum (fun I => I.shapeVal * a'.mass I.nodeHash) (fun I h1 _ => by beta_reduce; rw [h1, zero_mul]) p
  have e2 : pointSum c' (fun i => c'.shapeVal i * a'.mass (c'.nodeHash i)) p
      = pointSum c (fun i => c.shapeVal i * a.mass (c.nodeHash i)) (π.symm p) := by
    refine e.trans (Finset.sum_congr rfl fun i _ => ?_)
    show c.shapeVal i * a'.mass (T.row size (c.nodeHash i)) = _
    rw [ha.mass _ (hc.lt i)]
  unfold dynAlpha
  simp only [e2]
  rfl

/-- Grid to particles. -/
theorem LatSym.aflipG2p_sym (hc : LatSym.ListSym T h π size c c') (sqrt : K → K) (pr : AflipParams K) (cell dt : K)
    (s : MPState K dim n) {a a' : GridArrays K dim} (ha : LatSym.GridSym T size a a') :
    aflipG2pMls sqrt pr cell dt c' a' (T.mp h π s)
      = (T.mp h π (aflipG2pMls sqrt pr cell dt c a s).1,
          fun q => rotated (T.mat h) ((aflipG2pMls sqrt pr cell dt c a s).2 (π.symm q))) := by
  have eN : ∀ p, (aflipGather pr.cutoff c' a').pVelNt p = T.vec ((aflipGather pr.cutoff c a).pVelNt (π.symm p)) :=
    fun p => funext fun b => LatSym.gather_sym T hc pr.cutoff ha.mass ha.momentNt p b
  have eV : ∀ p, (aflipGather pr.cutoff c' a').pVel p = T.vec ((aflipGather pr.cutoff c a).pVel (π.symm p)) :=
    fun p => funext fun b => LatSym.gather_sym T hc pr.cutoff ha.mass ha.moment p b
  have eB : ∀ p, (aflipGather pr.cutoff c' a').pBp p = rotated (T.mat h) ((aflipGather pr.cutoff c a).pBp (π.symm p)) :=
    fun p => LatSym.gatherB_sym T hc pr.cutoff ha.mass ha.momentNt p
  have eA := fun p => LatSym.dynAlpha_sym T hc pr s ha p
  have orth := LatSym.mat_orth T h
  generalize hG : aflipGather pr.cutoff c a = G at eN eV eB
  generalize hG' : aflipGather pr.cutoff c' a' = G' at eN eV eB
  have kL : ∀ M : Mat3 K, (if dim = 2 then set22 (rotated (T.mat h) M) 0 else rotated (T.mat h) M)
      = rotated (T.mat h) (if dim = 2 then set22 M 0 else M) := by
    intro M; split_ifs with h2
    · exact LatSym.set22_rot T h h2 M 0
    · rfl
  have kI : ∀ L F : Mat3 K, (1 - dt • rotated (T.mat h) L) * rotated (T.mat h) F = rotated (T.mat h) ((1 - dt • L) * F) := by
    intro L F
    rw [rotated_mul orth, rotated_sub, rotated_one orth, rotated_smul]
  have kF : ∀ M : Mat3 K, (if dim = 2 then set22 (rotated (T.mat h) M) 1 else rotated (T.mat h) M)
      = rotated (T.mat h) (if dim = 2 then set22 M 1 else M) := by
    intro M; split_ifs with h2
    · exact LatSym.set22_rot T h h2 M 1
    · rfl
  have kv : ∀ p, (fun b => T.vec (G.pVelNt p) b + dynAlpha pr c a s p * (T.vec (s.velocity p) b - T.vec (G.pVel p) b))
      = T.vec fun b => G.pVelNt p b + dynAlpha pr c a s p * (s.velocity p b - G.pVel p b) := by
    intro p; funext b; simp only [Spec.LatSym.vec]; ring
  unfold aflipG2pMls
  simp only [hG, hG']
  refine Prod.ext ?_ ?_
  · simp only [Spec.LatSym.mp, eN, eV, eB, kL, kI, kF, det_rotated orth, MPState.mk.injEq, true_and, and_true]
    refine ⟨?_, ?_, ?_⟩
    · funext p b
      simp only [Spec.LatSym.point, Spec.LatSym.vec]
      ring
    · funext p
      have ea : dynAlpha pr c' a' (T.mp h π s) p = dynAlpha pr c a s (π.symm p) := eA p
      simp only [Spec.LatSym.mp] at ea
      simp only [ea, kv, LatSym.clamp_sym]
      funext b
      simp only [Spec.LatSym.vec]
      ring
    · cases s.FStore with
      | none => rfl
      | some f => simp only [Option.map_some, kI]
  · funext q
    exact eB q

end

section
variable {z : Sz} {K : Type*} [Field K] [LinearOrder K] [IsStrictOrderedRing K] [FloorRing K] {dim : ℕ}
  {SS LS FS : Type*} {Y : SceneSym z K dim SS LS FS} {sv sv' : Solver z K dim SS LS FS}

/-- The stored array of affine matrices (usl_asflip.py:545). -/
def padded {n : ℕ} (B : Fin n → Mat3 K) : ℕ → Mat3 K := fun q => if hq : q < n then B ⟨q, hq⟩ else 0

/-- Affine matrices are turned and renumbered with the points, and the state a coupling reads is the one it writes. -/
structure SceneSym.AffineSym (Y : SceneSym z K dim SS LS FS) (c : Coupling z) : Prop where
  same : c.s.val = c.p.val
  read : ∀ (B : ℕ → Mat3 K) (q : Fin (z.np c.p)), Y.solver c.s B q = rotated (Y.T.mat Y.h) (B ((Y.pts c.p).symm q : Fin (z.np c.p)))
  write : ∀ B : Fin (z.np c.p) → Mat3 K,
    padded (fun q => rotated (Y.T.mat Y.h) (B ((Y.pts c.p).symm q))) = Y.solver c.s (padded B)

theorem SceneSym.aflipP2gCoupling_sym (hs : SceneSym.SolverSym Y sv sv') (c : Coupling z)
    (hB : c.skip = false → SceneSym.AffineSym Y c) {x x' : Ctx z K dim SS LS FS} (hx : SceneSym.CtxSym Y sv.domains x x') :
    ExSym (SceneSym.CtxSym Y sv.domains) (aflipP2gCoupling sv.domains x c) (aflipP2gCoupling sv'.domains x' c) := by
  unfold aflipP2gCoupling
  split_ifs with hk
  · exact .ok hx
  · have hB := hB (by simpa using hk)
    have hi := hx.inter c.p c.g
    have hb := hx.body c.p
    rw [hb]
    generalize x.cache.interactions c.p c.g = a at hi ⊢
    generalize x'.cache.interactions c.p c.g = b at hi ⊢
    cases hi with
    | none => exact .error _
    | some ker hc =>
      cases x.world.bodies c.p with
      | rigid r => exact .error _
      | deformable s =>
        simp only [Spec.LatSym.body]
        have ev : (Y.T.mp Y.h (Y.pts c.p) s).volScalar = s.volScalar := rfl
        rw [ev]
        split_ifs
        · exact .error _
        · refine .ok (hx.setGrid c.g ?_)
          have e : (fun q : Fin (z.np c.p) => x'.mech.solvers c.s q.val)
              = fun q => rotated (Y.T.mat Y.h) (x.mech.solvers c.s ((Y.pts c.p).symm q : Fin (z.np c.p))) := by
            funext q
            rw [hx.mech]
            exact hB.read _ q
          rw [e, (hs.domains c.g).cell]
          exact LatSym.aflipP2g_sym Y.T hc _ (fun q => x.mech.solvers c.s q.val) s (hx.grids c.g)

theorem SceneSym.aflipP2g_sym (hs : SceneSym.SolverSym Y sv sv')
    (hB : ∀ c ∈ sv.couplings, c.skip = false → SceneSym.AffineSym Y c) (dt t : K) {x x' : Ctx z K dim SS LS FS}
    (hx : SceneSym.CtxSym Y sv.domains x x') : ExSym (SceneSym.CtxSym Y sv.domains) (aflipP2g sv x dt t) (aflipP2g sv' x' dt t) := by
  unfold aflipP2g
  rw [hs.couplings]
  refine ExSym.andThen (SceneSym.hook_sym hs _ (fun f f' hf x x' hx => hf.pre x x' dt t hx) hx) ?_
  intro a b hab
  exact ExSym.foldE_mem _ (fun c hc a b hab => SceneSym.aflipP2gCoupling_sym hs c (hB c hc) hab) hab

theorem SceneSym.aflipG2pCoupling_sym (hs : SceneSym.SolverSym Y sv sv') (fn : MathFns K) (pr : AflipParams K) (dt : K)
    (c : Coupling z) (hB : c.skip = false → SceneSym.AffineSym Y c) {x x' : Ctx z K dim SS LS FS}
    (hx : SceneSym.CtxSym Y sv.domains x x') :
    ExSym (SceneSym.CtxSym Y sv.domains) (aflipG2pCoupling fn pr sv.domains dt x c) (aflipG2pCoupling fn pr sv'.domains dt x' c) := by
  unfold aflipG2pCoupling
  by_cases hk : c.skip = true
  · rw [if_pos hk, if_pos hk]
    exact .ok hx
  · rw [if_neg hk, if_neg hk]
    have hB := hB (by simpa using hk)
    have hi := hx.inter c.p c.g
    have hb := hx.body c.p
    rw [hb]
    generalize x.cache.interactions c.p c.g = a at hi ⊢
    generalize x'.cache.interactions c.p c.g = b at hi ⊢
    cases hi with
    | none => exact .error _
    | some ker hc =>
      cases x.world.bodies c.p with
      | rigid r => exact .error _
      | deformable s =>
        rename_i ic ic'
        simp only [Spec.LatSym.body]
        have hlt : c.p.val < z.S := hB.same ▸ c.s.isLt
        have hcs : (⟨c.p.val, hlt⟩ : Fin z.S) = c.s := Fin.ext hB.same.symm
        rw [dif_pos hlt, dif_pos hlt, hcs]
        unfold aflipG2pBody
        split_ifs
        · exact .error _
        · simp only [Hydrax.andThen]
          refine .ok ?_
          rw [(hs.domains c.g).cell, LatSym.aflipG2p_sym Y.T hc fn.sqrt pr (sv.domains c.g).cellSize dt s (hx.grids c.g)]
          generalize aflipG2pMls fn.sqrt pr (sv.domains c.g).cellSize dt ic (x.cache.grids c.g) s = r
          have h1 := hx.setBody c.p (.deformable r.1)
          refine ⟨h1.world, ?_, h1.inter, h1.grids, h1.mpGeoms, h1.nodeGeoms⟩
          simp only [hx.mech, Spec.SceneSym.mech, Mech.mk.injEq, true_and, and_true]
          have e := hB.write r.2
          unfold padded at e
          beta_reduce at e
          rw [e]
          funext k
          by_cases hk : k = c.s
          · subst hk; simp
          · simp [Function.update_of_ne hk]

theorem SceneSym.aflipG2p_sym (hs : SceneSym.SolverSym Y sv sv')
    (hB : ∀ c ∈ sv.couplings, c.skip = false → SceneSym.AffineSym Y c) (fn : MathFns K) (pr : AflipParams K) (dt t : K)
    {x x' : Ctx z K dim SS LS FS} (hx : SceneSym.CtxSym Y sv.domains x x') :
    ExSym (SceneSym.CtxSym Y sv.domains) (aflipG2p fn pr sv x dt t) (aflipG2p fn pr sv' x' dt t) := by
  unfold aflipG2p
  rw [hs.couplings]
  exact ExSym.foldE_mem _ (fun c hc a b hab => SceneSym.aflipG2pCoupling_sym hs fn pr dt c (hB c hc) hab) hx

/-- One call of the ASFLIP solver on the image of a state gives the image of the result. -/
theorem SceneSym.aflipCall_sym (hs : SceneSym.SolverSym Y sv sv')
    (hB : ∀ c ∈ sv.couplings, c.skip = false → SceneSym.AffineSym Y c) (fn : MathFns K) (pr : AflipParams K)
    (st : SimState z K dim SS LS FS) : aflipCall fn pr sv' (Y.state st) = (aflipCall fn pr sv st).map Y.state := by
  apply ExSym.map_eq
  unfold aflipCall callWith
  refine ExSym.andThen (SceneSym.kin_sym hs st.world st.mech st.dt st.time) ?_
  rintro a b rfl
  simp only [SceneSym.reset_sym hs]
  refine ExSym.andThen (SceneSym.aflipP2g_sym hs hB st.dt st.time (SceneSym.cache_sym hs fn _ a.2 st.dt)) ?_
  intro a b hab
  refine ExSym.andThen (SceneSym.integrate_sym hs st.dt st.time hab) ?_
  intro a b hab
  refine ExSym.andThen (SceneSym.aflipG2p_sym hs hB fn pr st.dt st.time hab) ?_
  intro a b hab
  refine ExSym.andThen (SceneSym.laws_sym hs fn st.dt st.time hab) ?_
  intro a b hab
  refine .ok ?_
  unfold Spec.SceneSym.state
  simp only [hab.world, hab.mech]

end
end Hydrax
