import Verif.Props.Galilean
import Verif.Props.AflipMomentum
import Verif.Props.WholeCellsAflip

/-!
# C94 for the ASFLIP solver

The speed limit of the solver (usl_asflip.py:485-487) refers to the grid, so it is not the same for all observers. Below the limit, for
both observers, one step is the same for both.
-/

set_option linter.unusedSectionVars false

namespace Hydrax
open Spec

section
variable {z : Sz} {K : Type*} [Field K] [LinearOrder K] [IsStrictOrderedRing K] [FloorRing K] {dim : ℕ} {SS LS : Type*}
  {u : Fin dim → K} {δ : Fin z.P → Fin dim → K} {nt : Fin z.G → Prop} {x x' : Ctx z K dim SS LS (ForceState K dim)}

/-- Speeds below the limit of the solver, by the small number that the solver adds to the speed. -/
def Spec.BelowLimit (cfl cell dt : K) (v : Fin dim → K) : Prop :=
  1 / 10 ^ 12 ≤ cfl * cell / dt ∧ speedSq v ≤ (cfl * cell / dt - 1 / 10 ^ 12) ^ 2

theorem clampFactor_one {sqrt : K → K} (hs : LowerRoot sqrt) {cfl cell dt : K} {v : Fin dim → K} (h : BelowLimit cfl cell dt v) :
    clampFactor sqrt cfl cell dt v = 1 := by
  obtain ⟨h0, h1⟩ := hs (∑ a, v a ^ 2) (speedSq_nonneg v)
  have hp : (0 : K) < sqrt (∑ a, v a ^ 2) + 1 / 10 ^ 12 := by positivity
  refine min_eq_left ((one_le_div hp).mpr ?_)
  have : sqrt (∑ a, v a ^ 2) ≤ cfl * cell / dt - 1 / 10 ^ 12 :=
    abs_le_of_sq_le_sq' (h1.trans h.2) (by linarith [h.1]) |>.2
  linarith

/-- A point that comes out below the limit has not been slowed down. -/
theorem clamped_below {sqrt : K → K} (hs : LowerRoot sqrt) {cfl cell dt : K} {v : Fin dim → K}
    (h : BelowLimit cfl cell dt fun a => v a * clampFactor sqrt cfl cell dt v) : clampFactor sqrt cfl cell dt v = 1 :=
  clamp_one_of_speed hs v h.1 h.2

theorem aflipP2gBody_gal {n w : ℕ} (cell : K) (c : InteractionCache K n w) (B : Fin n → Mat3 K) (d : Fin dim → K) (s : MPState K dim n)
    {a a' : GridArrays K dim} {q : Prop} (h : GridGal u q a a') :
    GridGal u False (aflipP2gBody cell c B s a) (aflipP2gBody cell c B (carried u d s) a') where
  mass j := by simp only [aflipP2gBody, h.mass, carried]
  moment j b := by
    simp only [aflipP2gBody, h.moment, carried, scatterAdd]
    have : ∀ i, (if c.nodeHash i = j then c.shapeVal i * c.cpicMask i * s.mass (c.pointId i) *
        (s.velocity (c.pointId i) b + u b - trunc3 dim (fun r => ∑ k, B (c.pointId i) r k * distPhys cell c i k) b) else 0) =
        (if c.nodeHash i = j then c.shapeVal i * c.cpicMask i * s.mass (c.pointId i) *
          (s.velocity (c.pointId i) b - trunc3 dim (fun r => ∑ k, B (c.pointId i) r k * distPhys cell c i k) b) else 0) +
        (if c.nodeHash i = j then c.shapeVal i * c.cpicMask i * s.mass (c.pointId i) else 0) * u b := by
      intro i; split_ifs <;> ring
    simp only [this, Finset.sum_add_distrib, ← Finset.sum_mul]
    ring
  force j b := rfl
  momentNt hf := hf.elim

theorem aflipP2gCoupling_gal (dom : Fin z.G → GridDomain K dim) (c : Coupling z) {y : Ctx z K dim SS LS (ForceState K dim)}
    (h : CtxGal u δ (fun _ => False) x x') (hy : aflipP2gCoupling dom x c = .ok y) :
    ∃ y', aflipP2gCoupling dom x' c = .ok y' ∧ CtxGal u δ (fun _ => False) y y' := by
  unfold aflipP2gCoupling at hy ⊢
  rw [h.inter, h.bodies, h.mech]
  split_ifs at hy ⊢ with hs
  · exact ⟨x', rfl, (Except.ok.inj hy) ▸ h⟩
  · cases hi : x.cache.interactions c.p c.g with
    | none => rw [hi] at hy; simp at hy
    | some v =>
      rw [hi] at hy
      cases hb : x.world.bodies c.p with
      | rigid r => rw [hb] at hy; simp at hy
      | deformable s =>
        rw [hb] at hy
        simp only [carriedBody]
        have ev : (carried u (δ c.p) s).volScalar = s.volScalar := rfl
        rw [ev]
        simp only at hy
        split_ifs at hy ⊢
        obtain rfl := Except.ok.inj hy
        exact ⟨_, rfl, h.setGrid c.g (aflipP2gBody_gal _ v.2 _ _ s (h.grids c.g)) fun _ _ e => e⟩

theorem aflipG2pMls_gal {n w N : ℕ} {c : InteractionCache K n w} (hc : GoodCache c N) {sqrt : K → K} (hs : LowerRoot sqrt) (pr : AflipParams K)
    (cell dt : K) (d : Fin dim → K) (s : MPState K dim n) {a a' : GridArrays K dim} (h : GridGal u True a a')
    (hv : ∀ i, c.shapeVal i ≠ 0 → 0 < a.mass (c.nodeHash i) ∧ pr.cutoff < a.mass (c.nodeHash i))
    (hlim : ∀ p, BelowLimit pr.cfl cell dt ((aflipG2pMls sqrt pr cell dt c a s).1.velocity p) ∧
      BelowLimit pr.cfl cell dt fun b => (aflipG2pMls sqrt pr cell dt c a s).1.velocity p b + u b) :
    aflipG2pMls sqrt pr cell dt c a' (carried u d s) =
      (carried u (fun b => d b + dt * u b) (aflipG2pMls sqrt pr cell dt c a s).1, (aflipG2pMls sqrt pr cell dt c a s).2) := by
  have hnv : ∀ {m mom : K} (b : Fin dim), 0 < m → pr.cutoff < m → nodeVel pr.cutoff m (mom + m * u b) = nodeVel pr.cutoff m mom + u b := by
    intro m mom b h0 hm
    have : m ≠ 0 := h0.ne'
    unfold nodeVel
    rw [if_pos hm, if_pos hm, if_pos hm]
    field_simp
  have h1 : ∀ i b, c.shapeVal i * nodeVel pr.cutoff (a'.mass (c.nodeHash i)) (a'.momentNt (c.nodeHash i) b) =
      c.shapeVal i * nodeVel pr.cutoff (a.mass (c.nodeHash i)) (a.momentNt (c.nodeHash i) b) + u b * c.shapeVal i := by
    intro i b
    by_cases h0 : c.shapeVal i = 0
    · rw [h0]; simp
    · rw [h.mass, h.momentNt trivial, hnv b (hv i h0).1 (hv i h0).2]; ring
  have h2 : ∀ i b, c.shapeVal i * nodeVel pr.cutoff (a'.mass (c.nodeHash i)) (a'.moment (c.nodeHash i) b) =
      c.shapeVal i * nodeVel pr.cutoff (a.mass (c.nodeHash i)) (a.moment (c.nodeHash i) b) + u b * c.shapeVal i := by
    intro i b
    by_cases h0 : c.shapeVal i = 0
    · rw [h0]; simp
    · rw [h.mass, h.moment, hnv b (hv i h0).1 (hv i h0).2]; ring
  have h3 : ∀ i j k, -(pad3 (fun b => nodeVel pr.cutoff (a'.mass (c.nodeHash i)) (a'.momentNt (c.nodeHash i) b)) j * c.shapeGrad i k) =
      -(pad3 (fun b => nodeVel pr.cutoff (a.mass (c.nodeHash i)) (a.momentNt (c.nodeHash i) b)) j * c.shapeGrad i k) +
        -(pad3 u j) * c.shapeGrad i k := by
    intro i j k
    by_cases h0 : c.shapeVal i = 0
    · rw [hc.grad_zero i h0 k]; simp
    · have e : pad3 (fun b => nodeVel pr.cutoff (a'.mass (c.nodeHash i)) (a'.momentNt (c.nodeHash i) b)) j =
          pad3 (fun b => nodeVel pr.cutoff (a.mass (c.nodeHash i)) (a.momentNt (c.nodeHash i) b)) j + pad3 u j := by
        unfold pad3
        split_ifs
        · beta_reduce
          rw [h.mass, h.momentNt trivial, hnv _ (hv i h0).1 (hv i h0).2]
        · simp
      rw [e]; ring
  have p1 : ∀ p b, (aflipGather pr.cutoff c a').pVelNt p b = (aflipGather pr.cutoff c a).pVelNt p b + u b := by
    intro p b
    simp only [aflipGather, h1, pointSum_add, pointSum_mul, hc.sum_val, mul_one]
  have p2 : ∀ p b, (aflipGather pr.cutoff c a').pVel p b = (aflipGather pr.cutoff c a).pVel p b + u b := by
    intro p b
    simp only [aflipGather, h2, pointSum_add, pointSum_mul, hc.sum_val, mul_one]
  have p3 : (aflipGather pr.cutoff c a').pBp = (aflipGather pr.cutoff c a).pBp := by
    funext p j k
    simp only [aflipGather, h3, pointSum_add, pointSum_mul, hc.sum_grad, mul_zero, add_zero]
  have pd : ∀ p, dynAlpha pr c a' (carried u d s) p = dynAlpha pr c a s p := by
    intro p
    simp only [dynAlpha, h.mass, carried]
  have hv0 : ∀ p, clampFactor sqrt pr.cfl cell dt (fun b => (aflipGather pr.cutoff c a).pVelNt p b + dynAlpha pr c a s p *
      (s.velocity p b - (aflipGather pr.cutoff c a).pVel p b)) = 1 := fun p => clamped_below hs (hlim p).1
  have hv1 : ∀ p, clampFactor sqrt pr.cfl cell dt (fun b => (aflipGather pr.cutoff c a).pVelNt p b + dynAlpha pr c a s p *
      (s.velocity p b - (aflipGather pr.cutoff c a).pVel p b) + u b) = 1 := by
    intro p
    have := (hlim p).2
    simp only [aflipG2pMls, hv0, mul_one] at this
    exact clampFactor_one hs this
  have e0 : ∀ p, (fun b => (aflipGather pr.cutoff c a').pVelNt p b + dynAlpha pr c a' (carried u d s) p *
      ((carried u d s).velocity p b - (aflipGather pr.cutoff c a').pVel p b)) =
      fun b => (aflipGather pr.cutoff c a).pVelNt p b + dynAlpha pr c a s p *
      (s.velocity p b - (aflipGather pr.cutoff c a).pVel p b) + u b := by
    intro p
    funext b
    rw [p1, p2, pd]
    simp only [carried]
    ring
  unfold aflipG2pMls
  simp only [p3]
  refine Prod.ext ?_ rfl
  have ev : ∀ p b, ((aflipGather pr.cutoff c a').pVelNt p b + dynAlpha pr c a' (carried u d s) p *
      ((carried u d s).velocity p b - (aflipGather pr.cutoff c a').pVel p b)) * clampFactor sqrt pr.cfl cell dt
        (fun b => (aflipGather pr.cutoff c a').pVelNt p b + dynAlpha pr c a' (carried u d s) p *
      ((carried u d s).velocity p b - (aflipGather pr.cutoff c a').pVel p b)) =
      ((aflipGather pr.cutoff c a).pVelNt p b + dynAlpha pr c a s p * (s.velocity p b - (aflipGather pr.cutoff c a).pVel p b)) *
        clampFactor sqrt pr.cfl cell dt (fun b => (aflipGather pr.cutoff c a).pVelNt p b + dynAlpha pr c a s p *
          (s.velocity p b - (aflipGather pr.cutoff c a).pVel p b)) + u b := by
    intro p b
    rw [e0 p, hv0, hv1, congrFun (e0 p) b]
    ring
  simp only [ev]
  simp only [carried, p1, p2, MPState.mk.injEq, and_true]
  funext p b
  ring_nf

theorem aflipG2pCoupling_gal {fn : MathFns K} (hsq : LowerRoot fn.sqrt) (pr : AflipParams K) (dom : Fin z.G → GridDomain K dim) (dt : K)
    (c : Coupling z) {y : Ctx z K dim SS LS (ForceState K dim)} (h : CtxGal u δ nt x x') (hnt : c.skip = false → nt c.g) {N : ℕ}
    (hc : c.skip = false → ∀ v, x.cache.interactions c.p c.g = some v → GoodCache v.2 N ∧
      ∀ i, v.2.shapeVal i ≠ 0 → 0 < (x.cache.grids c.g).mass (v.2.nodeHash i) ∧ pr.cutoff < (x.cache.grids c.g).mass (v.2.nodeHash i))
    (hlim : c.skip = false → ∀ s, y.world.bodies c.p = .deformable s → ∀ q, BelowLimit pr.cfl (dom c.g).cellSize dt (s.velocity q) ∧
      BelowLimit pr.cfl (dom c.g).cellSize dt fun b => s.velocity q b + u b)
    (hy : aflipG2pCoupling fn pr dom dt x c = .ok y) : ∃ y', aflipG2pCoupling fn pr dom dt x' c = .ok y' ∧ y.cache = x.cache ∧
      CtxGal u (fun p b => δ p b + if c.skip = false ∧ c.p = p then dt * u b else 0) nt y y' := by
  cases hs : c.skip with
  | true =>
    obtain rfl := aflipG2pCoupling_skip hs hy
    refine ⟨x', ?_, rfl, by simpa using h⟩
    unfold aflipG2pCoupling
    rw [if_pos hs]
  | false =>
    obtain ⟨ker, ic, s, r, hS, hic, hb, hr, rfl⟩ := aflipG2pCoupling_ok hs hy
    obtain ⟨hg, hv⟩ := hc hs _ hic
    have hgal := h.grids c.g
    have hr' := aflipG2pBody_ok hr
    have hl := hlim hs r.1 (setBody_self _ _ _)
    rw [hr'] at hl
    have e := aflipG2pMls_gal hg hsq pr (dom c.g).cellSize dt (δ c.p) s (a := x.cache.grids c.g) (a' := x'.cache.grids c.g)
      ⟨hgal.mass, hgal.moment, hgal.force, fun _ => hgal.momentNt (hnt hs)⟩ hv hl
    rw [← hr'] at e
    have hmls : aflipG2pBody fn.sqrt pr (dom c.g).cellSize dt ic (x'.cache.grids c.g) (carried u (δ c.p) s) =
        .ok (carried u (fun b => δ c.p b + dt * u b) r.1, r.2) := by
      unfold aflipG2pBody at hr ⊢
      split_ifs at hr ⊢
      exact congrArg _ e
    refine ⟨{ x'.setBody c.p (.deformable (carried u (fun b => δ c.p b + dt * u b) r.1)) with mech := { x'.mech with
        solvers := Function.update x'.mech.solvers ⟨c.p.val, hS⟩ (fun q => if hq : q < z.np c.p then r.2 ⟨q, hq⟩ else 0) } }, ?_, rfl, ?_⟩
    · unfold aflipG2pCoupling
      rw [if_neg (by simp [hs]), h.inter, hic, h.bodies, hb]
      simp only [carriedBody, dif_pos hS, hmls, andThen]
    · have hb' := h.setBody (δ' := fun p b => δ p b + if c.skip = false ∧ c.p = p then dt * u b else 0) c.p (b := .deformable r.1)
        (b' := .deformable (carried u (fun b => δ c.p b + dt * u b) r.1)) (by simp [carriedBody, hs]) (by
          intro q hq
          funext b
          simp [Ne.symm hq])
      refine ⟨?_, ?_, hb'.inter, hb'.grids, hb'.dists, hb'.normals, hb'.friction, hb'.wallVels⟩
      · simpa [hs] using hb'.bodies
      · simp only [h.mech]

theorem aflip_g2p_gal {fn : MathFns K} (hsq : LowerRoot fn.sqrt) (pr : AflipParams K) (dom : Fin z.G → GridDomain K dim) (dt : K)
    (cs : List (Coupling z)) (hn : (cs.map (·.p)).Nodup) {y : Ctx z K dim SS LS (ForceState K dim)}
    (h : CtxGal u (fun _ => 0) (usesGrid cs) x x') {N : Fin z.G → ℕ}
    (hc : ∀ c ∈ cs, c.skip = false → ∀ v, x.cache.interactions c.p c.g = some v → GoodCache v.2 (N c.g) ∧
      ∀ i, v.2.shapeVal i ≠ 0 → 0 < (x.cache.grids c.g).mass (v.2.nodeHash i) ∧ pr.cutoff < (x.cache.grids c.g).mass (v.2.nodeHash i))
    (hlim : ∀ c ∈ cs, c.skip = false → ∀ s, y.world.bodies c.p = .deformable s → ∀ q,
      BelowLimit pr.cfl (dom c.g).cellSize dt (s.velocity q) ∧ BelowLimit pr.cfl (dom c.g).cellSize dt fun b => s.velocity q b + u b)
    (hy : foldE (aflipG2pCoupling fn pr dom dt) x cs = .ok y) :
    ∃ y', foldE (aflipG2pCoupling fn pr dom dt) x' cs = .ok y' ∧
      CtxGal u (fun p b => (activeCount cs p : K) * (dt * u b)) (usesGrid cs) y y' := by
  suffices H : ∀ (l : List (Coupling z)) (x x' : Ctx z K dim SS LS (ForceState K dim)) (δ : Fin z.P → Fin dim → K), (∀ c ∈ l, c ∈ cs) →
      (l.map (·.p)).Nodup → CtxGal u δ (usesGrid cs) x x' → (∀ c ∈ l, c.skip = false → ∀ v, x.cache.interactions c.p c.g = some v →
        GoodCache v.2 (N c.g) ∧ ∀ i, v.2.shapeVal i ≠ 0 → 0 < (x.cache.grids c.g).mass (v.2.nodeHash i) ∧
          pr.cutoff < (x.cache.grids c.g).mass (v.2.nodeHash i)) →
      foldE (aflipG2pCoupling fn pr dom dt) x l = .ok y → ∃ y', foldE (aflipG2pCoupling fn pr dom dt) x' l = .ok y' ∧
      CtxGal u (fun p b => δ p b + (activeCount l p : K) * (dt * u b)) (usesGrid cs) y y' by
    obtain ⟨y', h1, h2⟩ := H cs x x' (fun _ => 0) (fun _ h => h) hn h hc hy
    exact ⟨y', h1, by simpa using h2⟩
  intro l
  induction l with
  | nil =>
    intro x x' δ _ _ hx _ hy
    obtain rfl : x = y := by simpa [foldE] using hy
    exact ⟨x', rfl, by simpa [activeCount] using hx⟩
  | cons c l ih =>
    intro x x' δ hm hn hx hc hy
    rw [List.map_cons, List.nodup_cons] at hn
    obtain ⟨x1, h1, h2⟩ := foldE_cons_ok.mp hy
    -- later couplings do not touch this body
    have hkeep : x1.world.bodies c.p = y.world.bodies c.p := by
      refine (foldE_inv (I := fun a : Ctx z K dim SS LS (ForceState K dim) => a.world.bodies c.p = x1.world.bodies c.p) l _ y rfl ?_ h2).symm
      intro b hb s s' hs hh
      have hne : c.p ≠ b.p := fun e => hn.1 (List.mem_map.mpr ⟨b, hb, e.symm⟩)
      cases hk : b.skip with
      | true => rw [aflipG2pCoupling_skip hk hh]; exact hs
      | false =>
        obtain ⟨_, _, _, _, _, -, -, -, rfl⟩ := aflipG2pCoupling_ok hk hh
        exact (setBody_ne _ hne _).trans hs
    obtain ⟨x1', e1, e2, e3⟩ := aflipG2pCoupling_gal hsq pr dom dt c hx (fun hs => ⟨c, hm c (by simp), hs, rfl⟩) (N := N c.g) (hc c (by simp))
      (fun hs s hb => hlim c (hm c (by simp)) hs s (hkeep ▸ hb)) h1
    obtain ⟨y', e4, e5⟩ := ih x1 x1' _ (fun b hb => hm b (by simp [hb])) hn.2 e3 (by
      intro b hb hs v hv
      rw [e2] at hv ⊢
      exact hc b (by simp [hb]) hs v hv) h2
    refine ⟨y', foldE_cons_ok.mpr ⟨x1', e1, e4⟩, ?_⟩
    convert e5 using 3 with p b
    rw [activeCount_cons]
    split_ifs <;> push_cast <;> ring

/-- **C94 (ASFLIP), one step.** As `usl_galilean_partial`, for points that are below the speed limit of the solver for both observers. -/
theorem aflip_galilean_partial {fn : MathFns K} (hsq : LowerRoot fn.sqrt) (pr : AflipParams K)
    {sv : Solver z K dim SS LS (ForceState K dim)} (hdim : dim = 2 ∨ dim = 3)
    (hforces : ∀ f ∈ sv.forces, InertialForce f) (hlaws : ∀ c, LawCarried (sv.laws c)) (hL : ∀ c, (sv.laws c).OnlyStress)
    {st st' st1 : SimState z K dim SS LS (ForceState K dim)} (h : aflipCall fn pr sv st = .ok st')
    (hr : Regular (max uslCutoff pr.cutoff) sv st.world) (u : Fin dim → K) (hb : Boosted sv u st st1)
    (hlim : ∀ c ∈ sv.couplings, c.skip = false → ∀ s, st'.world.bodies c.p = .deformable s → ∀ q,
      BelowLimit pr.cfl (sv.domains c.g).cellSize st.dt (s.velocity q) ∧
      BelowLimit pr.cfl (sv.domains c.g).cellSize st.dt fun b => s.velocity q b + u b) :
    ∃ st1', aflipCall fn pr sv st1 = .ok st1' ∧ st1'.mech = st'.mech ∧ st1'.time = st'.time ∧ st1'.step = st'.step ∧
      (∀ c ∈ sv.couplings, c.skip = false → st1'.world.bodies c.p = carriedBody u (fun a => st.dt * u a) (st'.world.bodies c.p)) ∧
      ∀ p, (∀ c ∈ sv.couplings, c.skip = false → c.p ≠ p) → st1'.world.bodies p = carriedBody u 0 (st'.world.bodies p) := by
  have hlib : ∀ f ∈ sv.forces, LibForce f := fun f hf => InertialForce.lib (hforces f hf)
  obtain ⟨wm, x1, x2, x3, x4, h1, h2, h3, h4, h5, rfl⟩ := callWith_ok h
  have hk := kinematicUpdate_lib hlib _ _ _ _ _ h1
  -- kinematics of the boosted scene
  have hk' : ∃ wm', kinematicUpdate sv st1.world st1.mech st1.dt st1.time = .ok wm' ∧ wm'.1.bodies = st1.world.bodies ∧
      wm'.2 = st1.mech ∧ wm'.1.sdfs = (fun i => (sv.sdfs i).updateKin (st1.world.sdfs i) st1.dt) := by
    unfold kinematicUpdate
    have e : foldE (fun (wm : World z K dim SS × Mech z K LS (ForceState K dim)) f => f.kinematics wm.1 wm.2 st1.dt st1.time)
        (st1.world, st1.mech) sv.forces = .ok (st1.world, st1.mech) := by
      have : ∀ l : List (ForceHooks z K dim SS LS (ForceState K dim)), (∀ f ∈ l, InertialForce f) →
          foldE (fun (wm : World z K dim SS × Mech z K LS (ForceState K dim)) f => f.kinematics wm.1 wm.2 st1.dt st1.time)
            (st1.world, st1.mech) l = .ok (st1.world, st1.mech) := by
        intro l
        induction l with
        | nil => intro _; rfl
        | cons f l ih =>
          intro hl
          refine foldE_cons_ok.mpr ⟨_, ?_, ih fun g hg => hl g (by simp [hg])⟩
          cases hl f (by simp) <;> rfl
      exact this _ hforces
    rw [e]
    exact ⟨_, rfl, rfl, rfl, rfl⟩
  obtain ⟨wm', hk1, hk2, hk3, hk4⟩ := hk'
  set w0 := resetMaterialPoints sv wm.1 with hw0
  set w0' := resetMaterialPoints sv wm'.1 with hw0'
  have hdt : st1.dt = st.dt := hb.dt
  have hbod : wm.1.bodies = st.world.bodies := hk.1
  have hbody0 : ∀ p, w0'.bodies p = carriedBody u 0 (w0.bodies p) := by
    intro p
    simp only [hw0, hw0', resetMaterialPoints, hbod, hk2, hb.bodies]
    split_ifs
    · cases st.world.bodies p <;> rfl
    · rfl
  have hpos0 : ∀ p, (w0'.bodies p).position = (w0.bodies p).position := by
    intro p
    rw [hbody0]
    cases w0.bodies p with
    | rigid r => rfl
    | deformable s =>
      show (fun q a => s.position q a + 0) = s.position
      funext q a; exact add_zero _
  have hinter : computeConnectivity sv w0' = computeConnectivity sv w0 := by
    unfold computeConnectivity
    congr 1
    funext d c
    unfold connStep
    rw [hpos0]
  have hsdf0 : ∀ i, w0.sdfs i = (sv.sdfs i).updateKin (st.world.sdfs i) st.dt := fun i => congrFun hk.2.2 i
  have hsdf0' : ∀ i, w0'.sdfs i = (sv.sdfs i).updateKin (st1.world.sdfs i) st.dt := fun i => by
    rw [← hdt]; exact congrFun hk4 i
  have c0 : CtxGal u (fun _ => 0) (fun _ => False)
      (⟨w0, wm.2, buildCache fn sv w0 st.dt⟩ : Ctx z K dim SS LS (ForceState K dim))
      ⟨w0', wm'.2, buildCache fn sv w0' st1.dt⟩ := by
    refine ⟨hbody0, ?_, ?_, ?_, ?_, ?_, ?_, ?_⟩
    · show wm'.2 = wm.2
      rw [hk3, hk.2.1, hb.mech]
    · show (buildCache fn sv w0' st1.dt).interactions = (buildCache fn sv w0 st.dt).interactions
      rw [buildCache_interactions, buildCache_interactions, hinter]
    · intro g
      exact ⟨fun _ => rfl, fun _ b => by simp [buildCache, GridArrays.new], fun _ _ => rfl, fun e => e.elim⟩
    all_goals intro g d j
    · simp only [buildCache, sdfGeom, hsdf0, hsdf0', (hb.sdfs d).dist]
    · simp only [buildCache, sdfGeom, hsdf0, hsdf0']
      exact (hb.sdfs d).normal _
    · simp only [buildCache, sdfGeom, hsdf0, hsdf0', (hb.sdfs d).friction]
    · intro b
      simp only [buildCache, sdfGeom, hsdf0, hsdf0', hdt, (hb.sdfs d).velocity]
  -- scatter
  obtain ⟨x0, h20, h21⟩ := andThen_ok.mp h2
  have hx0 : x0 = ⟨w0, wm.2, buildCache fn sv w0 st.dt⟩ :=
    foldE_inv (I := fun a => a = (⟨w0, wm.2, buildCache fn sv w0 st.dt⟩ : Ctx z K dim SS LS (ForceState K dim))) sv.forces _ x0 rfl
      (by rintro f hf s s' rfl hs; exact inertial_pre_eq (hforces f hf) _ _ hs) h20
  obtain ⟨x0', h20', c1⟩ := foldE_pair' (R := CtxGal u (fun _ => 0) (fun _ => False))
    (fun f hf a b a' hR hs => inertial_pre (hforces f hf) hR st.dt st.time hs) c0 h20
  subst hx0
  obtain ⟨x1', h21', c2⟩ := foldE_pair' (R := CtxGal u (fun _ => 0) (fun _ => False))
    (fun c _ a b a' hR hs => aflipP2gCoupling_gal sv.domains c hR hs) c1 h21
  have hl0 : HasLists sv.domains (⟨w0, wm.2, buildCache fn sv w0 st.dt⟩ : Ctx z K dim SS LS (ForceState K dim))
      sv.couplings := by
    intro c hc
    change (buildCache fn sv w0 st.dt).interactions c.p c.g = _
    rw [buildCache_interactions]
    exact computeConnectivity_self sv w0 hr.single c hc
  have hdep := deposits_order (List.Perm.refl sv.couplings) (fun c hc => aflip_deposits sv.domains _ c (hl0 c hc)) h21
  have w1 := same_of_fold sv.couplings _ x1 (fun c _ x x' hx => aflipP2gCoupling_world sv.domains x x' c hx) h21
  have hnm := fun p => reset_nodeMass sv wm.1 p
  rw [← hw0, hbod] at hnm
  have hmass1 : ∀ g j, (x1.cache.grids g).mass j =
      gridSum sv.couplings g (fun c => (st.world.bodies c.p).nodeMass c.ker (sv.domains c.g) j) := by
    intro g j
    rw [(hdep.1 g).mass j, gridSum_filter]
    refine (zero_add _).trans (gridSum_congr _ _ _ _ fun c hc _ _ => ?_)
    rw [← (hnm c.p c.ker (sv.domains c.g)).1]
    unfold aflipContribution
    change (match w0.bodies c.p with | .rigid _ => _ | .deformable s => _ : Contribution K dim).mass j = _
    cases w0.bodies c.p with
    | rigid r => rfl
    | deformable s =>
      simp [aflipP2gBody, Body.nodeMass, nodeMass, GridArrays.new, compute]
  have hgood : ∀ c ∈ sv.couplings, c.skip = false → ∀ s, st.world.bodies c.p = .deformable s →
      GoodCache (compute c.ker (sv.domains c.g) s.position) (sv.domains c.g).numCells := by
    intro c hc hs s hb
    obtain ⟨o, e, hh, pad, hpos, hpad, hd, hx⟩ := hr.box c hc hs
    rw [hb] at hx
    rw [hd]
    exact goodCache_of_inBox hdim c.ker o e hh hpos pad hpad s.position hx
  have hnonneg : ∀ j, ∀ c ∈ sv.couplings, c.skip = false → 0 ≤ (st.world.bodies c.p).nodeMass c.ker (sv.domains c.g) j := by
    intro j c hc hs
    cases hbb : st.world.bodies c.p with
    | rigid r => exact le_rfl
    | deformable s => exact nodeMass_nonneg (hgood c hc hs s hbb) s.mass (fun q => (hr.mass_pos c hc hs s hbb q).le) j
  have hsum_nonneg : ∀ g j, 0 ≤ gridSum sv.couplings g (fun c => (st.world.bodies c.p).nodeMass c.ker (sv.domains c.g) j) := by
    intro g j
    refine List.sum_nonneg fun x hx => ?_
    obtain ⟨c, hc, rfl⟩ := List.mem_map.mp hx
    split_ifs with hh
    · exact hnonneg j c hc hh.1
    · exact le_rfl
  have hheavy2 : ∀ g j, (x1.cache.grids g).mass j = 0 ∨ 0 < (x1.cache.grids g).mass j ∧ max uslCutoff pr.cutoff < (x1.cache.grids g).mass j := by
    intro g j
    rw [hmass1]
    rcases (hsum_nonneg g j).eq_or_lt with e | e
    · exact .inl e.symm
    · exact .inr ⟨e, hr.cutoff g j e⟩
  have hheavy : ∀ g j, (x1.cache.grids g).mass j = 0 ∨ uslCutoff < (x1.cache.grids g).mass j := fun g j =>
    (hheavy2 g j).imp id fun e => (le_max_left _ _).trans_lt e.2
  -- forces, integration, contact
  obtain ⟨y1, h31, h3⟩ := andThen_ok.mp h3
  obtain ⟨y2, h32, h33⟩ := andThen_ok.mp h3
  obtain ⟨y1', h31', c3⟩ := foldE_pair' (R := CtxGal u (fun _ => 0) (fun _ => False))
    (fun f hf a b a' hR hs => inertial_forces (hforces f hf) hR st.dt st.time hs) c2 h31
  have m1 : ∀ g, (y1.cache.grids g).mass = (x1.cache.grids g).mass :=
    foldE_inv (I := fun a : Ctx z K dim SS LS (ForceState K dim) => ∀ g, (a.cache.grids g).mass = (x1.cache.grids g).mass)
      sv.forces _ y1 (fun _ => rfl) (fun f hf s s' hs hh g => (inertial_forces_mass (hforces f hf) _ _ hh g).trans (hs g)) h31
  obtain ⟨y2', h32', c4⟩ := integrate_gal st.dt sv.couplings c3 h32
  have m2 : ∀ g, (y2.cache.grids g).mass = (x1.cache.grids g).mass := fun g =>
    (integrate_fold st.dt sv.couplings y1 y2 h32 g).1.trans (m1 g)
  obtain ⟨x2', h33', c5, m3⟩ := foldE_pair' (R := fun (a b : Ctx z K dim SS LS (ForceState K dim)) =>
      CtxGal u (fun _ => 0) (usesGrid sv.couplings) a b ∧ ∀ g, (a.cache.grids g).mass = (x1.cache.grids g).mass)
    (fun f hf a b a' hR hs => inertial_moments (hforces f hf) hheavy hR.1 hR.2 st.dt st.time hs) ⟨c4, m2⟩ h33
  -- gather
  have wy1 : y1.world = x1.world ∧ y1.mech = x1.mech ∧ y1.cache.interactions = x1.cache.interactions ∧
      y1.cache.mpGeoms = x1.cache.mpGeoms := same_of_fold sv.forces x1 y1
    (fun f hfm x x' hx => libForce_gridForces (hlib f hfm) x x' _ _ hx) h31
  have wy2 := same_of_fold sv.couplings y1 y2
    (fun c _ x x' hx => integrateCoupling_world st.dt x x' c hx) h32
  have wy3 : x2.world = y2.world ∧ x2.mech = y2.mech ∧ x2.cache.interactions = y2.cache.interactions ∧
      x2.cache.mpGeoms = y2.cache.mpGeoms := same_of_fold sv.forces y2 x2
    (fun f hfm x x' hx => libForce_gridMoments (hlib f hfm) x x' _ _ hx) h33
  have hvel := (law_fold hL st.dt sv.couplings x3 x4 h5).2
  have hl2 : HasLists sv.domains x2 sv.couplings := by
    intro b hb'
    rw [wy3.2.2.1, wy2.2.2.1, wy1.2.2.1, w1.2.2.1, wy3.1, wy2.1, wy1.1, w1.1]
    exact hl0 b hb'
  obtain ⟨x3', h4', c6⟩ := aflip_g2p_gal hsq pr sv.domains st.dt sv.couplings hr.single (N := fun g => (sv.domains g).numCells) c5 (by
    intro c hc hs v hv
    rw [wy3.2.2.1, wy2.2.2.1, wy1.2.2.1, w1.2.2.1, hl0 c hc] at hv
    obtain rfl := Option.some.inj hv
    cases hbb : st.world.bodies c.p with
    | rigid r =>
      exfalso
      have hw : x2.world.bodies c.p = .rigid r := by
        rw [wy3.1, wy2.1, wy1.1, w1.1]
        show w0.bodies c.p = _
        simp only [hw0, resetMaterialPoints, hbod, hbb, ite_self]
      obtain ⟨-, -, gb, -⟩ := aflip_g2p_fold pr st.dt sv.domains sv.couplings hr.single x2 x3 hl2 h4
      obtain ⟨s, e, -⟩ := gb c hc hs
      rw [hw] at e
      cases e
    | deformable s =>
      have hp : (w0.bodies c.p).position = s.position := by
        rw [(hnm c.p c.ker (sv.domains c.g)).2.2, hbb]; rfl
      have hg := hgood c hc hs s hbb
      change GoodCache (compute c.ker (sv.domains c.g) (w0.bodies c.p).position) _ ∧
        ∀ i, (compute c.ker (sv.domains c.g) (w0.bodies c.p).position).shapeVal i ≠ 0 → _ <
          (x2.cache.grids c.g).mass ((compute c.ker (sv.domains c.g) (w0.bodies c.p).position).nodeHash i) ∧ _ <
          (x2.cache.grids c.g).mass ((compute c.ker (sv.domains c.g) (w0.bodies c.p).position).nodeHash i)
      rw [hp, m3]
      refine ⟨hg, fun i hi => ?_⟩
      refine ((hheavy2 c.g _).imp id fun e => (⟨e.1, (le_max_right _ _).trans_lt e.2⟩ : _ ∧ _)).resolve_left fun e => hi ?_
      rw [hmass1] at e
      have hz := gridSum_term_zero sv.couplings c.g _ (hnonneg _) e c hc hs rfl
      rw [hbb] at hz
      exact val_zero_of_nodeMass hg s.mass (hr.mass_pos c hc hs s hbb) _ hz i rfl) (by
    intro c hc hs s hb3 q
    have hv := hvel c.p
    rw [hb3] at hv
    cases hb4 : x4.world.bodies c.p with
    | rigid r => rw [hb4] at hv; exact hv.elim
    | deformable t =>
      rw [hb4] at hv
      have := hlim c hc hs t hb4 q
      rwa [hv.2.1] at this) h4
  -- laws
  obtain ⟨x4', h5', c7⟩ := foldE_pair' (R := CtxGal u (fun p b => (activeCount sv.couplings p : K) * (st.dt * u b)) (usesGrid sv.couplings))
    (fun c _ a b a' hR hs => lawCoupling_gal fn hlaws st.dt c hR hs) c6 h5
  refine ⟨{ st1 with world := x4'.world, mech := x4'.mech, step := st1.step + 1, time := st1.time + st1.dt }, ?_, c7.mech, ?_, ?_, ?_, ?_⟩
  · unfold aflipCall callWith
    rw [hk1, andThen, ← hw0', hdt, hb.time]
    refine andThen_ok.mpr ⟨x1', ?_, andThen_ok.mpr ⟨x2', ?_, andThen_ok.mpr ⟨x3', h4', andThen_ok.mpr ⟨x4', h5', rfl⟩⟩⟩⟩
    · have := h20'
      rw [hdt] at this
      exact andThen_ok.mpr ⟨x0', this, h21'⟩
    · exact andThen_ok.mpr ⟨y1', h31', andThen_ok.mpr ⟨y2', h32', h33'⟩⟩
  · show st1.time + st1.dt = st.time + st.dt
    rw [hdt, hb.time]
  · show st1.step + 1 = st.step + 1
    rw [hb.step]
  · intro c hc hs
    have := c7.bodies c.p
    rw [activeCount_one hr.single hc hs] at this
    simpa using this
  · intro p hp
    have := c7.bodies p
    rw [activeCount_zero hp] at this
    simp only [Nat.cast_zero, zero_mul] at this
    exact this

end

section
variable {z : Sz} {K : Type*} [Field K] [LinearOrder K] [IsStrictOrderedRing K] [FloorRing K] {dim : ℕ} {SS : Type*}
  {sv : Solver z K dim SS (LawState K) (ForceState K dim)}

/-- Obstacles are moved once per call and not touched otherwise. -/
theorem aflip_call_sdfs {fn : MathFns K} {pr : AflipParams K} (hf : ∀ f ∈ sv.forces, InertialForce f) {st st' : SimState z K dim SS (LawState K) (ForceState K dim)}
    (h : aflipCall fn pr sv st = .ok st') : st'.world.sdfs = fun i => (sv.sdfs i).updateKin (st.world.sdfs i) st.dt := by
  have hlib : ∀ f ∈ sv.forces, LibForce f := fun f hm => InertialForce.lib (hf f hm)
  obtain ⟨wm, x1, x2, x3, x4, h1, h2, h3, h4, h5, rfl⟩ := callWith_ok h
  have hk := (kinematicUpdate_lib hlib _ _ _ _ _ h1).2.2
  obtain ⟨x0, h20, h21⟩ := andThen_ok.mp h2
  have e0 : x0.world.sdfs = wm.1.sdfs := by
    refine foldE_inv (I := fun a : Ctx z K dim SS (LawState K) (ForceState K dim) => a.world.sdfs = wm.1.sdfs) sv.forces _ x0 rfl ?_ h20
    intro f hm s s' hs hh
    rw [inertial_pre_eq (hf f hm) _ _ hh]
    exact hs
  have e1 := same_of_fold sv.couplings x0 x1 (fun c _ x x' hx => aflipP2gCoupling_world sv.domains x x' c hx) h21
  have e2 := integrateGrid_lib hlib _ _ _ _ h3
  have e3 : x3.world.sdfs = x2.world.sdfs := by
    refine foldE_inv (I := fun a : Ctx z K dim SS (LawState K) (ForceState K dim) => a.world.sdfs = x2.world.sdfs) sv.couplings _ x3 rfl ?_ h4
    intro c _ s s' hs hh
    cases hk : c.skip with
    | true => rw [aflipG2pCoupling_skip hk hh]; exact hs
    | false =>
      obtain ⟨_, _, _, _, _, -, -, -, rfl⟩ := aflipG2pCoupling_ok hk hh
      exact hs
  have e4 : x4.world.sdfs = x3.world.sdfs := by
    refine foldE_inv (I := fun a : Ctx z K dim SS (LawState K) (ForceState K dim) => a.world.sdfs = x3.world.sdfs) sv.couplings _ x4 rfl ?_ h5
    intro c _ s s' hs hh
    unfold lawCoupling at hh
    by_cases hk : c.skip = true
    · rw [if_pos hk] at hh; rw [← Except.ok.inj hh]; exact hs
    · rw [if_neg hk] at hh
      split at hh
      · cases hh
      · obtain ⟨r, -, h6⟩ := andThen_ok.mp hh
        rw [← Except.ok.inj h6]; exact hs
  change x4.world.sdfs = _
  rw [e4, e3, e2.1, e1.1, e0, hk]

theorem aflip_call_dt {fn : MathFns K} {pr : AflipParams K} {st st' : SimState z K dim SS (LawState K) (ForceState K dim)} (h : aflipCall fn pr sv st = .ok st') :
    st'.dt = st.dt := by
  obtain ⟨wm, x1, x2, x3, x4, h1, h2, h3, h4, h5, rfl⟩ := callWith_ok h
  rfl

/-- **C94 over runs (ASFLIP).** As `galilean_run_partial`, for points that stay below the speed limit for both observers. -/
theorem aflip_galilean_run_partial {fn : MathFns K} (hsq : LowerRoot fn.sqrt) (pr : AflipParams K) (hdim : dim = 2 ∨ dim = 3) (hg : GridsProper sv) (hl : ∀ c, LibLaw (sv.laws c))
    (hf : ∀ f ∈ sv.forces, InertialForce f)
    (hown : ∀ c ∈ sv.couplings, c.skip = false → c.s.val = c.p.val) {u : Fin dim → K} {st : SimState z K dim SS (LawState K) (ForceState K dim)}
    (hu : WholeCells sv fun a => st.dt * u a) {Q : Fin z.D → SS → Prop} {β : Fin z.D → SS → SS} {τ : Fin z.D → ℕ → SS → SS}
    (hτ : ∀ d, Rides u st.dt (Q d) (β d) (τ d) (sv.sdfs d)) (hQ : ∀ d, Q d (st.world.sdfs d))
    (hall : ∀ p, (∃ c ∈ sv.couplings, c.skip = false ∧ c.p = p) ∧ ∃ s, st.world.bodies p = .deformable s) (n : ℕ)
    {st' : SimState z K dim SS (LawState K) (ForceState K dim)} (h : runSteps (aflipCall fn pr sv) n st = .ok st')
    (hr : ∀ i < n, ∀ si, runSteps (aflipCall fn pr sv) i st = .ok si → Regular (max uslCutoff pr.cutoff) sv si.world ∧ WindowsInside sv si.world ∧
      WindowsInside sv (sceneAt (fun a => i * st.dt * u a) (fun _ s => s) si).world)
    (hlim : ∀ i < n, ∀ si, runSteps (aflipCall fn pr sv) (i + 1) st = .ok si → ∀ c ∈ sv.couplings, c.skip = false →
      ∀ s, si.world.bodies c.p = .deformable s → ∀ q, BelowLimit pr.cfl (sv.domains c.g).cellSize st.dt (s.velocity q) ∧
      BelowLimit pr.cfl (sv.domains c.g).cellSize st.dt fun b => s.velocity q b + u b) :
    runSteps (aflipCall fn pr sv) n (seenMoving u β st) = .ok (sceneAt (fun a => n * st.dt * u a) (fun d => τ d n) (seenMoving u β st')) ∧
    st'.dt = st.dt ∧ (∀ d, Q d (st'.world.sdfs d)) ∧ ∀ p, ∃ s, st'.world.bodies p = .deformable s := by
  induction n generalizing st' with
  | zero =>
    obtain rfl : st = st' := by simpa [runSteps] using h
    refine ⟨?_, rfl, hQ, fun p => (hall p).2⟩
    simp only [runSteps, sceneAt, seenMoving, Nat.cast_zero, zero_mul, bodyAt_zero, (hτ _).start _ (hQ _)]
  | succ n ih =>
    obtain ⟨s, h1, h2⟩ := runSteps_succ_ok.mp h
    obtain ⟨ih1, ih2, ih3, ih4⟩ := ih h1 (fun i hi => hr i (by omega)) fun i hi => hlim i (by omega)
    obtain ⟨hreg, hfit, hfit'⟩ := hr n (by omega) s h1
    have hsd := aflip_call_sdfs hf h2
    rw [ih2] at hsd
    have hb : Boosted sv u s (seenMoving u β s) :=
      { bodies := fun _ => rfl, sdfs := fun i => by rw [ih2]; exact (hτ i).look _ (ih3 i), mech := rfl, dt := rfl, time := rfl, step := rfl }
    obtain ⟨r, hr1, hr2, hr3, hr4, hr5, -⟩ := aflip_galilean_partial hsq pr hdim hf
      (fun c => libLaw_carried (hl c)) (fun c => (hl c).onlyStress) h2 hreg u hb (by rw [ih2]; exact hlim n (by omega) st' h)
    have hsd' := aflip_call_sdfs hf hr1
    have hdef : ∀ p, ∃ t, st'.world.bodies p = .deformable t := by
      intro p
      obtain ⟨t, ht⟩ := ih4 p
      have := aflipCall_rel (R := fun _ _ _ => True) (fn := fn)
        { refl := fun _ _ => trivial, trans := fun _ _ _ _ _ _ => trivial, damp := fun _ _ _ => trivial, reset := fun _ _ => trivial
          g2p := fun _ _ _ _ _ _ _ _ _ => trivial, aflip := fun _ _ _ _ _ _ _ _ _ _ _ => trivial, stress := fun _ _ _ => trivial
          shear := fun _ _ _ => trivial }
        (fun c => (hl c).onlyStress) (fun f hm => InertialForce.lib (hf f hm)) pr s st' h2 p
      rw [ht] at this
      cases hb' : st'.world.bodies p with
      | deformable t' => exact ⟨t', rfl⟩
      | rigid r => rw [hb'] at this; exact this.elim
    have hdt : st'.dt = st.dt := (aflip_call_dt h2).trans ih2
    have hfit0 : WindowsInside sv (seenMoving u β s).world := by
      intro c hc q
      have := hfit c hc q
      obtain ⟨t, ht⟩ := ih4 c.p
      have e : ((seenMoving u β s).world.bodies c.p).position = (s.world.bodies c.p).position := by
        simp only [seenMoving, ht, carriedBody]
        funext q a
        exact add_zero _
      rw [e]; exact this
    have hfit1 : WindowsInside sv (sceneAt (fun a => n * st.dt * u a) (fun d => τ d n) (seenMoving u β s)).world := by
      intro c hc q
      have := hfit' c hc q
      obtain ⟨t, ht⟩ := ih4 c.p
      have e : ((sceneAt (fun a => n * st.dt * u a) (fun d => τ d n) (seenMoving u β s)).world.bodies c.p).position =
          ((sceneAt (fun a => n * st.dt * u a) (fun _ s => s) s).world.bodies c.p).position := by
        simp only [sceneAt, bodyAt_position, seenMoving, ht, carriedBody]
        funext q a
        change t.position q a + 0 + _ = t.position q a + _
        rw [add_zero]
      rw [e]; exact this
    have hw : WholeCells sv fun a => n * st.dt * u a := by
      intro g d
      obtain ⟨k, hk⟩ := hu g d
      exact ⟨n * k, by push_cast; linear_combination (n : K) * hk⟩
    have hmove := aflip_whole_cells hdim hg hl (fun f hm => InertialForce.lib (hf f hm)) hown hw (fun d => (hτ d).moves n) fn pr hfit0 hfit1
    refine ⟨?_, hdt, fun d => by rw [hsd]; exact (hτ d).keeps _ (ih3 d), hdef⟩
    unfold runSteps
    rw [ih1]
    change aflipCall fn pr sv _ = _
    rw [hmove, hr1]
    change Except.ok _ = Except.ok _
    congr 1
    have hrb : ∀ p, r.world.bodies p = carriedBody u (fun a => st.dt * u a) (st'.world.bodies p) := by
      intro p
      obtain ⟨c, hc, hs, rfl⟩ := (hall p).1
      rw [← ih2]
      exact hr5 c hc hs
    have hrd : r.dt = st'.dt := by
      rw [aflip_call_dt hr1, aflip_call_dt h2]; rfl
    have ebod : ∀ p, bodyAt (fun a => n * st.dt * u a) (r.world.bodies p) =
        bodyAt (fun a => ((n + 1 : ℕ) : K) * st.dt * u a) (carriedBody u 0 (st'.world.bodies p)) := by
      intro p
      obtain ⟨t, ht⟩ := hdef p
      rw [hrb, ht]
      simp only [carriedBody, bodyAt, carried]
      congr 2
      funext q a
      push_cast
      simp only [Pi.zero_apply]
      ring
    have esdf : ∀ i, τ i n (r.world.sdfs i) = τ i (n + 1) (β i (st'.world.sdfs i)) := by
      intro i
      rw [hsd', hsd]
      change τ i n ((sv.sdfs i).updateKin (β i (s.world.sdfs i)) s.dt) = _
      rw [ih2]
      exact (hτ i).step n _ (ih3 i)
    unfold sceneAt
    simp only [ebod, esdf, seenMoving]
    cases r
    cases st'
    simp only at hr2 hr3 hr4 hrd
    subst hr2 hr3 hr4 hrd
    rfl

/-- **C94 (ASFLIP)** The speed limit is not the same for all observers: for an observer faster than twice the limit no point of any
scene has the velocity it should have. -/
theorem aflip_limit_not_galilean {fn : MathFns K} (hsq : UpperRoot fn.sqrt) (pr : AflipParams K) (hl : ∀ c, LibLaw (sv.laws c))
    {st st' st1 st1' : SimState z K dim SS (LawState K) (ForceState K dim)} (h : aflipCall fn pr sv st = .ok st')
    (h1 : aflipCall fn pr sv st1 = .ok st1') (hdt : st1.dt = st.dt) {M : K}
    (hM : ∀ c ∈ sv.couplings, c.skip = false → 0 ≤ pr.cfl * (sv.domains c.g).cellSize / st.dt ∧ pr.cfl * (sv.domains c.g).cellSize / st.dt ≤ M)
    {u : Fin dim → K} (hu : (2 * M) ^ 2 < speedSq u) (c : Coupling z) (hc : c ∈ sv.couplings) (hs : c.skip = false) :
    ∃ s s1, st'.world.bodies c.p = .deformable s ∧ st1'.world.bodies c.p = .deformable s1 ∧
      ∀ q, s1.velocity q ≠ fun a => s.velocity q a + u a := by
  obtain ⟨s, e, hv⟩ := aflip_speed_limit_partial hsq pr (fun c => (hl c).onlyStress) h M hM c hc hs
  obtain ⟨s1, e1, hv1⟩ := aflip_speed_limit_partial hsq pr (fun c => (hl c).onlyStress) h1 M (by rw [hdt]; exact hM) c hc hs
  refine ⟨s, s1, e, e1, fun q hq => ?_⟩
  have a1 := hv q
  have a2 := hv1 q
  have : speedSq u ≤ 2 * speedSq (s.velocity q) + 2 * speedSq (s1.velocity q) := by
    unfold speedSq
    rw [Finset.mul_sum, Finset.mul_sum, ← Finset.sum_add_distrib]
    refine Finset.sum_le_sum fun a _ => ?_
    have := congrFun hq a
    rw [this]
    nlinarith [sq_nonneg (s.velocity q a + (s.velocity q a + u a))]
  nlinarith

end

/-! ### The example scene -/

/-- Decidable form of the conditions on a state of the run: regular, windows inside for both observers. -/
def exFineB (t : Fin 2 → ℚ) (w : World exSz ℚ 2 Unit) : Bool :=
  exRegularB (max uslCutoff exAflipSlow.cutoff) w && exFitsB (fun _ => 0) w && exFitsB t w

/-- Decidable form of the speed limit for both observers. -/
def exBelowB (u : Fin 2 → ℚ) (w : World exSz ℚ 2 Unit) : Bool :=
  match w.bodies (0 : Fin 1) with
  | .rigid _ => false
  | .deformable s => (List.finRange 2).all fun q => speedSq (s.velocity q) ≤ (10 * (1 / 2) / (1 / 100) - 1 / 10 ^ 12) ^ 2 ∧
      speedSq (fun a => s.velocity q a + u a) ≤ (10 * (1 / 2) / (1 / 100) - 1 / 10 ^ 12) ^ 2

set_option maxRecDepth 100000 in
theorem exAflipRun_facts : exFineB (fun _ => 0) exState.world = true ∧
    checkOk (runSteps (aflipCall sqFns exAflipSlow (exSolver .linear false)) 1 exState)
      (fun s => exFineB ![1 / 2, 0] s.world && exBelowB ![50, 0] s.world) = true ∧
    (runSteps (aflipCall sqFns exAflipSlow (exSolver .linear false)) 2 exState).isOk = true ∧
    checkOk (runSteps (aflipCall sqFns exAflipSlow (exSolver .linear false)) 2 exState) (fun s => exBelowB ![50, 0] s.world) = true := by
  decide +kernel

theorem exBelow {w : World exSz ℚ 2 Unit} (h : exBelowB ![50, 0] w = true) :
    ∀ c ∈ (exSolver .linear false).couplings, c.skip = false → ∀ s, w.bodies c.p = .deformable s → ∀ q,
      BelowLimit exAflipSlow.cfl ((exSolver .linear false).domains c.g).cellSize exState.dt (s.velocity q) ∧
      BelowLimit exAflipSlow.cfl ((exSolver .linear false).domains c.g).cellSize exState.dt fun b => s.velocity q b + (![50, 0] : Fin 2 → ℚ) b := by
  intro c hc _ s hb q
  obtain rfl : c = exCoupling .linear := by simpa [exSolver] using hc
  change w.bodies (0 : Fin 1) = _ at hb
  unfold exBelowB at h
  rw [hb] at h
  simp only [List.all_eq_true, List.mem_finRange, decide_eq_true_eq, true_implies] at h
  have e : (1 : ℚ) / 10 ^ 12 ≤ 10 * (1 / 2) / (1 / 100) := by norm_num
  exact ⟨⟨e, (h q).1⟩, e, (h q).2⟩

/-- Two ASFLIP steps of the example scene, seen by an observer who moves by one cell per step. -/
example : ∃ st', runSteps (aflipCall sqFns exAflipSlow (exSolver .linear false)) 2 exState = .ok st' ∧
    runSteps (aflipCall sqFns exAflipSlow (exSolver .linear false)) 2 (seenMoving ![50, 0] Fin.elim0 exState) =
      .ok (sceneAt (fun a => (2 : ℕ) * (1 / 100) * (![50, 0] : Fin 2 → ℚ) a) (fun d => Fin.elim0 d) (seenMoving ![50, 0] Fin.elim0 st')) := by
  obtain ⟨f0, f1, f2, f3⟩ := exAflipRun_facts
  obtain ⟨st', h⟩ := isOk_ok f2
  refine ⟨st', h, ?_⟩
  refine (aflip_galilean_run_partial (τ := fun d => Fin.elim0 d) (Q := fun d => Fin.elim0 d) ratSqrt_lowerRoot exAflipSlow (.inl rfl) (ex_grids _ _)
    (fun _ => .elastic _ _ _) ?_ ?_ ?_ (fun d => Fin.elim0 d) (fun d => Fin.elim0 d) ?_ 2 h ?_ ?_).1
  · intro f hf
    rw [exSolver_forces, List.mem_singleton] at hf; subst hf; exact .gravity _ _ _ _
  · intro c hc _
    obtain rfl : c = exCoupling .linear := by simpa [exSolver] using hc
    rfl
  · intro g d
    fin_cases d
    · exact ⟨1, by norm_num [exSolver, GridDomain.create, exState]⟩
    · exact ⟨0, by simp⟩
  · intro p
    exact ⟨⟨exCoupling .linear, by simp [exSolver], rfl, Subsingleton.elim (α := Fin 1) _ _⟩, _, rfl⟩
  · intro i hi si hs
    obtain rfl | rfl : i = 0 ∨ i = 1 := by omega
    · obtain rfl : exState = si := by simpa [runSteps] using hs
      simp only [exFineB, Bool.and_eq_true] at f0
      refine ⟨exRegular f0.1.1, exFits0 f0.1.2, ?_⟩
      have e : (fun a => ((0 : ℕ) : ℚ) * exState.dt * (![50, 0] : Fin 2 → ℚ) a) = fun _ => 0 := by funext a; simp
      rw [e]
      exact exFits f0.2
    · have hb := checkOk_ok f1 si hs
      simp only [exFineB, Bool.and_eq_true] at hb
      refine ⟨exRegular hb.1.1.1, exFits0 hb.1.1.2, ?_⟩
      have e : (fun a => ((1 : ℕ) : ℚ) * exState.dt * (![50, 0] : Fin 2 → ℚ) a) = ![1 / 2, 0] := by
        funext a; fin_cases a <;> norm_num [exState]
      rw [e]
      exact exFits hb.1.2
  · intro i hi si hs
    obtain rfl | rfl : i = 0 ∨ i = 1 := by omega
    · have hb := checkOk_ok f1 si hs
      rw [Bool.and_eq_true] at hb
      exact exBelow hb.2
    · exact exBelow (checkOk_ok f3 si hs)

end Hydrax
