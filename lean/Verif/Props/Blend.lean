import Verif.Props.Momentum
import Verif.Lemmas.Energy

/-!
# Whole USL steps: kinetic energy (C20) and the blending parameter (C74)
-/

set_option linter.unusedSectionVars false

namespace Hydrax
open Spec

section
variable {z : Sz} {K : Type*} [Field K] [LinearOrder K] [IsStrictOrderedRing K] [FloorRing K] {dim : ℕ}
  {SS LS : Type*} {fn : MathFns K} {sv : Solver z K dim SS LS (ForceState K dim)}

/-- Kinetic energy of a deformable body. -/
def Spec.bodyKE {n : ℕ} : Body K dim n → K
  | .deformable s => ∑ p, 1 / 2 * s.mass p * ∑ a, s.velocity p a ^ 2
  | .rigid _ => 0

/-- Kinetic energy of the deformable bodies of a scene. -/
def Spec.totalKE (w : World z K dim SS) : K := ∑ p, bodyKE (w.bodies p)

theorem bodyKE_rel {n : ℕ} {b b' : Body K dim n} (h : Body.Rel SameMotion b b') : bodyKE b' = bodyKE b := by
  cases b <;> cases b' <;> simp only [Body.Rel] at h
  · obtain ⟨h1, h2, -, -⟩ := h
    simp only [bodyKE, h1, h2]
  · subst h; rfl

/-- Cauchy–Schwarz for the contributions of several bodies to a node. -/
theorem gridSum_sq_le (cs : List (Coupling z)) (g : Fin z.G) (m w e : Coupling z → K)
    (h : ∀ c ∈ cs, c.skip = false → c.g = g → 0 ≤ w c ∧ 0 ≤ e c ∧ m c ^ 2 ≤ w c * e c) :
    0 ≤ gridSum cs g w ∧ 0 ≤ gridSum cs g e ∧ gridSum cs g m ^ 2 ≤ gridSum cs g w * gridSum cs g e := by
  induction cs with
  | nil => simp [gridSum]
  | cons c cs ih =>
    obtain ⟨i1, i2, i3⟩ := ih fun d hd => h d (by simp [hd])
    simp only [gridSum_cons]
    by_cases hc : c.skip = false ∧ c.g = g
    · obtain ⟨h1, h2, h3⟩ := h c (by simp) hc.1 hc.2
      simp only [if_pos hc]
      refine ⟨by linarith, by linarith, ?_⟩
      set M := gridSum cs g m
      set W := gridSum cs g w
      set E := gridSum cs g e
      have key : 2 * (m c * M) ≤ w c * E + W * e c := by
        refine le_of_sq_le_sq ?_ (by positivity)
        have h4 : (m c * M) ^ 2 ≤ (w c * E) * (W * e c) := by
          calc (m c * M) ^ 2 = m c ^ 2 * M ^ 2 := by ring
            _ ≤ (w c * e c) * (W * E) := mul_le_mul h3 i3 (sq_nonneg _) (by positivity)
            _ = _ := by ring
        nlinarith [sq_nonneg (w c * E - W * e c)]
      nlinarith
    · simp only [if_neg hc, zero_add]
      exact ⟨i1, i2, i3⟩
where
  le_of_sq_le_sq {a b : K} (h : a ^ 2 ≤ b ^ 2) (hb : 0 ≤ b) : a ≤ b := abs_le_of_sq_le_sq' h hb |>.2

theorem gridSum_le (cs : List (Coupling z)) (f f' : Coupling z → K)
    (h : ∀ c ∈ cs, c.skip = false → f c ≤ f' c) : activeSum cs f ≤ activeSum cs f' := by
  induction cs with
  | nil => simp [activeSum]
  | cons c cs ih =>
    simp only [activeSum_cons]
    have := ih fun d hd => h d (by simp [hd])
    split_ifs with hs
    · have := h c (by simp) hs; linarith
    · linarith

/-- The kinetic energy of the nodes, moving with the velocities of the scattered momentum, is at most that of the bodies. -/
theorem scene_grid_ke {gravs : List (List (Fin z.G) × ℕ)} {st st' : SimState z K dim SS LS (ForceState K dim)}
    {grids : Fin z.G → GridArrays K dim} {f : Fin z.G → ℕ → Fin dim → K} {x3 x4 : Ctx z K dim SS LS (ForceState K dim)}
    (S : UslGather fn sv gravs st st' grids f x3 x4) :
    ∑ g, ∑ j ∈ Finset.range (sv.domains g).numCells, (grids g).mass j *
      (1 / 2 * ∑ a, nodeVel uslCutoff ((grids g).mass j) ((grids g).moment j a) ^ 2) ≤
      activeSum sv.couplings (fun c => bodyKE (st.world.bodies c.p)) := by
  let E : Coupling z → ℕ → Fin dim → K := fun c j a => match st.world.bodies c.p with
    | .deformable s => scatterAdd (compute c.ker (sv.domains c.g) s.position).nodeHash
        (fun i => (compute c.ker (sv.domains c.g) s.position).shapeVal i *
          s.mass ((compute c.ker (sv.domains c.g) s.position).pointId i) *
          s.velocity ((compute c.ker (sv.domains c.g) s.position).pointId i) a ^ 2) j
    | .rigid _ => 0
  have down : ∀ c ∈ sv.couplings, c.skip = false → bodyKE (st.world.bodies c.p) =
      ∑ j ∈ Finset.range (sv.domains c.g).numCells, 1 / 2 * ∑ a, E c j a := by
    intro c hc hs
    obtain ⟨s, e1, hgc, hmp, e2⟩ := S.body c hc hs
    simp only [E, e1, bodyKE]
    rw [← Finset.mul_sum, Finset.sum_comm]
    simp only [sum_scatterAdd _ hgc.hash_lt]
    have : ∀ a, ∑ i, (compute c.ker (sv.domains c.g) s.position).shapeVal i *
          s.mass ((compute c.ker (sv.domains c.g) s.position).pointId i) *
          s.velocity ((compute c.ker (sv.domains c.g) s.position).pointId i) a ^ 2 =
        ∑ p, s.mass p * s.velocity p a ^ 2 := by
      intro a
      rw [← sum_point_field hgc (fun p => s.mass p * s.velocity p a ^ 2)]
      exact Finset.sum_congr rfl fun i _ => by ring
    simp only [this]
    rw [Finset.sum_comm, Finset.mul_sum]
    refine Finset.sum_congr rfl fun p _ => ?_
    rw [← Finset.mul_sum]; ring
  rw [activeSum_congr _ _ _ down,
    ← sum_gridSum sv.couplings (fun g c => ∑ j ∈ Finset.range (sv.domains g).numCells, 1 / 2 * ∑ a, E c j a)]
  refine Finset.sum_le_sum fun g _ => ?_
  rw [← gridSum_sum]
  refine Finset.sum_le_sum fun j _ => ?_
  have hE : gridSum sv.couplings g (fun c => 1 / 2 * ∑ a, E c j a) =
      1 / 2 * ∑ a, gridSum sv.couplings g (fun c => E c j a) := by
    simp only [gridSum_sum, mul_comm (1 / 2 : K), ← gridSum_mul]
  rw [hE, mul_left_comm, Finset.mul_sum]
  refine mul_le_mul_of_nonneg_left (Finset.sum_le_sum fun a _ => ?_) (by norm_num)
  have hcs := gridSum_sq_le sv.couplings g (fun c => (st.world.bodies c.p).nodeMoment c.ker (sv.domains c.g) j a)
    (fun c => (st.world.bodies c.p).nodeMass c.ker (sv.domains c.g) j) (fun c => E c j a) (by
      intro c hc hs _
      obtain ⟨s, e1, hgc, hmp, e2⟩ := S.body c hc hs
      have hw : ∀ i, 0 ≤ (compute c.ker (sv.domains c.g) s.position).shapeVal i *
          s.mass ((compute c.ker (sv.domains c.g) s.position).pointId i) :=
        fun i => mul_nonneg (hgc.val_nonneg i) (hmp _).le
      simp only [E, e1, Body.nodeMass, Body.nodeMoment]
      exact ⟨scatterAdd_nonneg _ _ hw j, scatterAdd_nonneg _ _ (fun i => mul_nonneg (hw i) (sq_nonneg _)) j,
        scatter_sq_le _ _ _ hw j⟩)
  rw [← S.mass, ← S.moment] at hcs
  exact mul_nodeVel_sq_le _ _ _ _ (by unfold uslCutoff; positivity) hcs.2.1 hcs.2.2

/-- The total kinetic energy changes by that of the bodies with an active coupling. -/
theorem totalKE_active (hL : ∀ c, (sv.laws c).OnlyStress) {gravs : List (List (Fin z.G) × ℕ)}
    {st st' : SimState z K dim SS LS (ForceState K dim)} {cut : K} (hr : Regular cut sv st.world)
    {grids : Fin z.G → GridArrays K dim} {f : Fin z.G → ℕ → Fin dim → K} {x3 x4 : Ctx z K dim SS LS (ForceState K dim)}
    (S : UslGather fn sv gravs st st' grids f x3 x4) :
    totalKE st.world - totalKE st'.world = activeSum sv.couplings (fun c => bodyKE (st.world.bodies c.p)) -
        activeSum sv.couplings (fun c => bodyKE (st'.world.bodies c.p)) := by
  have hlaw := (law_fold hL st.dt sv.couplings x3 x4 S.law).2
  unfold totalKE
  rw [← Finset.sum_sub_distrib]
  rw [sum_bodies sv.couplings hr.single (fun p => bodyKE (st.world.bodies p) - bodyKE (st'.world.bodies p))]
  swap
  · intro p hp
    rw [S.world', bodyKE_rel (hlaw p)]
    rcases S.other p hp with e | ⟨s, e1, e2⟩
    · rw [e, sub_self]
    · rw [e1, e2]
      exact sub_self _
  have := activeSum_add sv.couplings (fun c => bodyKE (st.world.bodies c.p) - bodyKE (st'.world.bodies c.p))
      (fun c => bodyKE (st'.world.bodies c.p))
  simp only [sub_add_cancel] at this
  linarith

/-- **C20** (step). A USL step with `alpha = 0` without forces, of stress-free bodies, never increases the total kinetic
energy, for any number of bodies on any number of grids. -/
theorem usl_step_kinetic_energy (hdim : dim = 2 ∨ dim = 3) (hforces : sv.forces = [])
    (hL : ∀ c, (sv.laws c).OnlyStress) (halpha : sv.alpha = 0)
    {st st' : SimState z K dim SS LS (ForceState K dim)}
    (h : uslCall fn sv st = .ok st') (hr : Regular 0 sv st.world)
    (hσ : ∀ c ∈ sv.couplings, c.skip = false → ∀ s, st.world.bodies c.p = .deformable s → ∀ q, s.stress q = 0) :
    totalKE st'.world ≤ totalKE st.world := by
  obtain ⟨grids, f, x3, x4, S⟩ := usl_stages [] hdim hforces h hr
  have hlaw := (law_fold hL st.dt sv.couplings x3 x4 S.law).2
  have hf := S.stressfree hσ
  rw [← sub_nonneg, totalKE_active hL hr S.toUslGather, sub_nonneg]
  -- velocity of the nodes after the step
  let u : Fin z.G → ℕ → Fin dim → K := fun g j a => nodeVel uslCutoff ((grids g).mass j) ((grids g).moment j a)
  have hNt : ∀ c ∈ sv.couplings, c.skip = false → (grids c.g).momentNt = (grids c.g).moment := by
    intro c hc hs
    rw [S.momentNt c hc hs]
    funext j a
    have : (grids c.g).force j a = 0 := by rw [S.force, hf]; simp [gridAccel]
    rw [this, zero_mul, add_zero]
  have up : ∀ c ∈ sv.couplings, c.skip = false → bodyKE (st'.world.bodies c.p) ≤
      ∑ j ∈ Finset.range (sv.domains c.g).numCells,
        (st.world.bodies c.p).nodeMass c.ker (sv.domains c.g) j * (1 / 2 * ∑ a, u c.g j a ^ 2) := by
    intro c hc hs
    obtain ⟨s, e1, hgc, hmp, e2⟩ := S.body c hc hs
    rw [S.world', bodyKE_rel (hlaw c.p), e2, e1]
    have hk := interp_ke hgc s.mass (fun q => (hmp q).le) (u c.g)
    refine le_trans (le_of_eq ?_) (hk.trans (le_of_eq ?_))
    · simp only [bodyKE]
      refine Finset.sum_congr rfl fun p _ => ?_
      have hm : (g2pBody sv.alpha st.dt (compute c.ker (sv.domains c.g) s.position) none (grids c.g) (resetBody s)).mass p =
          s.mass p := rfl
      rw [hm]
      congr 1
      refine Finset.sum_congr rfl fun a _ => ?_
      simp only [g2pBody, ghostBlend, halpha, hNt c hc hs, u]
      ring
    · refine Finset.sum_congr rfl fun j _ => ?_
      simp only [Body.nodeMass, nodeMass]
      ring
  refine (gridSum_le _ _ _ up).trans (le_trans (le_of_eq ?_) (scene_grid_ke S.toUslGather))
  rw [← sum_gridSum sv.couplings (fun g c => ∑ j ∈ Finset.range (sv.domains g).numCells,
        (st.world.bodies c.p).nodeMass c.ker (sv.domains c.g) j * (1 / 2 * ∑ a, u g j a ^ 2))]
  refine Finset.sum_congr rfl fun g _ => ?_
  rw [← gridSum_sum]
  refine Finset.sum_congr rfl fun j _ => ?_
  rw [← gridSum_mul, ← S.mass g j]

/-- **C74**, what the code does. In a step of stress-free bodies under gravity every point moves with a velocity `w`
taken from the grid and its new velocity is `(1 - alpha) w + alpha (v + dt g)`. -/
theorem usl_alpha_blend (gravs : List (List (Fin z.G) × ℕ)) (hdim : dim = 2 ∨ dim = 3)
    (hforces : sv.forces = gravityList gravs) (hL : ∀ c, (sv.laws c).OnlyStress)
    {st st' : SimState z K dim SS LS (ForceState K dim)}
    (h : uslCall fn sv st = .ok st') (hr : Regular uslCutoff sv st.world)
    (hσ : ∀ c ∈ sv.couplings, c.skip = false → ∀ s, st.world.bodies c.p = .deformable s → ∀ q, s.stress q = 0) :
    ∀ c ∈ sv.couplings, c.skip = false → ∃ s s', st.world.bodies c.p = .deformable s ∧
      st'.world.bodies c.p = .deformable s' ∧ ∃ w : Fin (z.np c.p) → Fin dim → K, ∀ p a,
        s'.position p a = s.position p a + st.dt * w p a ∧
        s'.velocity p a = (1 - sv.alpha) * w p a +
          sv.alpha * (s.velocity p a + st.dt * gridAccel st.mech.forces gravs c.g a) := by
  obtain ⟨grids, f, x3, x4, S⟩ := usl_stages gravs hdim hforces h hr
  have hlaw := (law_fold hL st.dt sv.couplings x3 x4 S.law).2
  have hf := S.stressfree hσ
  intro c hc hs
  obtain ⟨s, e1, hgc, hm, e2⟩ := S.body c hc hs
  have hl := hlaw c.p
  rw [e2, ← S.world'] at hl
  cases hb : st'.world.bodies c.p with
  | rigid _ => rw [hb] at hl; exact hl.elim
  | deformable s' =>
    rw [hb] at hl
    obtain ⟨-, l2, l3, -⟩ := hl
    refine ⟨s, s', e1, rfl, fun p a => pointSum (compute c.ker (sv.domains c.g) s.position) (fun i =>
      (compute c.ker (sv.domains c.g) s.position).shapeVal i *
        nodeVel uslCutoff ((grids c.g).mass ((compute c.ker (sv.domains c.g) s.position).nodeHash i))
          ((grids c.g).momentNt ((compute c.ker (sv.domains c.g) s.position).nodeHash i) a)) p, fun p a => ⟨?_, ?_⟩⟩
    · rw [l3, mul_comm st.dt]; rfl
    · rw [l2]
      simp only [g2pBody, ghostBlend, resetBody]
      congr 2
      congr 1
      have hnonneg : ∀ j, ∀ c ∈ sv.couplings, c.skip = false →
          0 ≤ (st.world.bodies c.p).nodeMass c.ker (sv.domains c.g) j := by
        intro j c hc hs
        obtain ⟨s, e1, hgc, hm, -⟩ := S.body c hc hs
        rw [e1]
        exact nodeMass_nonneg hgc s.mass (fun q => (hm q).le) j
      have hpu := pointSum_mul (compute c.ker (sv.domains c.g) s.position) (st.dt * gridAccel st.mech.forces gravs c.g a)
        (compute c.ker (sv.domains c.g) s.position).shapeVal p
      rw [hgc.sum_val, mul_one] at hpu
      rw [← hpu]
      refine Finset.sum_congr rfl fun i _ => ?_
      beta_reduce
      by_cases h0 : (compute c.ker (sv.domains c.g) s.position).shapeVal i = 0
      · rw [h0, zero_mul, mul_zero]
      rw [mul_comm (st.dt * _)]
      set j := (compute c.ker (sv.domains c.g) s.position).nodeHash i with hj
      have hpos : 0 < (grids c.g).mass j := by
        refine lt_of_le_of_ne (S.mass_nonneg _ _) fun e => h0 ?_
        have hz := gridSum_term_zero sv.couplings c.g _ (hnonneg j) ((S.mass c.g j).symm.trans e.symm) c hc hs rfl
        rw [e1] at hz
        exact val_zero_of_nodeMass hgc s.mass hm j hz i rfl
      have hcut : uslCutoff < (grids c.g).mass j := by
        have := hr.cutoff c.g j
        rw [← S.mass] at this
        exact this hpos
      congr 1
      rw [S.momentNt c hc hs]
      unfold nodeVel
      simp only [gt_iff_lt, if_pos hcut, S.force, hf]
      field_simp
      ring

/-- The blend that the docstring describes (usl.py:60, `0.0 = FLIP, 1.0 = PIC`), for a point that moves with grid velocity
`w` and would have the velocity `v` without the grid. -/
def Spec.documentedBlend (alpha w v : K) : K := (1 - alpha) * v + alpha * w

/-- **C74** (partial). The update is the documented blend for the weight `1 - alpha`. Missing: the documented weight, see
`usl_alpha_reversed`. -/
theorem usl_alpha_partial (gravs : List (List (Fin z.G) × ℕ)) (hdim : dim = 2 ∨ dim = 3)
    (hforces : sv.forces = gravityList gravs) (hL : ∀ c, (sv.laws c).OnlyStress)
    {st st' : SimState z K dim SS LS (ForceState K dim)}
    (h : uslCall fn sv st = .ok st') (hr : Regular uslCutoff sv st.world) (hdt : st.dt ≠ 0)
    (hσ : ∀ c ∈ sv.couplings, c.skip = false → ∀ s, st.world.bodies c.p = .deformable s → ∀ q, s.stress q = 0) :
    ∀ c ∈ sv.couplings, c.skip = false → ∃ s s', st.world.bodies c.p = .deformable s ∧
      st'.world.bodies c.p = .deformable s' ∧ ∀ p a, s'.velocity p a =
        documentedBlend (1 - sv.alpha) ((s'.position p a - s.position p a) / st.dt)
          (s.velocity p a + st.dt * gridAccel st.mech.forces gravs c.g a) := by
  intro c hc hs
  obtain ⟨s, s', e1, e2, w, hw⟩ := usl_alpha_blend gravs hdim hforces hL h hr hσ c hc hs
  refine ⟨s, s', e1, e2, fun p a => ?_⟩
  rw [(hw p a).2, (hw p a).1, add_sub_cancel_left, mul_div_cancel_left₀ _ hdt, documentedBlend]
  ring

end

/-- The stress-free example body, with two different velocities. -/
def exLooseState : SimState exSz ℚ 2 Unit (LawState ℚ) (ForceState ℚ 2) :=
  { exState with
    world := { bodies := fun _ => .deformable { exBody with stress := fun _ => 0 }, sdfs := Fin.elim0 } }

/-- The example scene with `alpha = 0`. -/
def exPicSolver : Solver exSz ℚ 2 Unit (LawState ℚ) (ForceState ℚ 2) := { exFreeSolver with alpha := 0 }

theorem exLoose_stress : ∀ c ∈ exPicSolver.couplings, c.skip = false → ∀ s,
    exLooseState.world.bodies c.p = .deformable s → ∀ q, s.stress q = 0 := by
  intro c _ _ s hb q
  cases hb
  rfl

theorem exPic_regular {cut : ℚ} {w : World exSz ℚ 2 Unit} (h : exRegularB cut w = true) : Regular cut exPicSolver w := by
  have := exRegular (reset := false) h
  exact ⟨this.single, this.box, this.mass_pos, this.cutoff⟩

set_option maxRecDepth 100000 in
theorem exPic_ok : (uslCall ratFns exPicSolver exLooseState).isOk = true ∧ exRegularB 0 exLooseState.world = true ∧
    exRegularB uslCutoff exLooseState.world = true := by decide +kernel

/-- `usl_step_kinetic_energy` on the example scene. -/
example : ∃ st', uslCall ratFns exPicSolver exLooseState = .ok st' ∧ totalKE st'.world ≤ totalKE exLooseState.world := by
  obtain ⟨st', h⟩ := isOk_ok exPic_ok.1
  exact ⟨st', h, usl_step_kinetic_energy (.inl rfl) rfl (fun _ => LibLaw.onlyStress (.elastic 1000 (1 / 4) false)) rfl h
    (exPic_regular exPic_ok.2.1) exLoose_stress⟩

/-- There is energy to lose: the bound is strict in this scene. -/
theorem exPic_strict : checkOk (uslCall ratFns exPicSolver exLooseState)
    (fun s => totalKE s.world < totalKE exLooseState.world) = true := by
  set_option maxRecDepth 100000 in decide +kernel

/-- `usl_alpha_partial` on the example scene. -/
example : ∃ st', uslCall ratFns exPicSolver exLooseState = .ok st' := by
  obtain ⟨st', h⟩ := isOk_ok exPic_ok.1
  have := usl_alpha_partial [] (.inl rfl) rfl (fun _ => LibLaw.onlyStress (.elastic 1000 (1 / 4) false)) h
    (exPic_regular exPic_ok.2.2) (by norm_num [exLooseState, exState]) exLoose_stress
  exact ⟨st', h⟩

/-- Whether a one-body state is the documented blend of the given one (no gravity). -/
def documentedB (alpha dt : ℚ) : Body ℚ 2 2 → Body ℚ 2 2 → Bool
  | .deformable s, .deformable s' => decide (∀ p a, s'.velocity p a =
      documentedBlend alpha ((s'.position p a - s.position p a) / dt) (s.velocity p a))
  | _, _ => false

set_option maxRecDepth 100000 in
theorem exPic_eval : checkOk (uslCall ratFns exPicSolver exLooseState)
    (fun s => !documentedB 0 (1 / 100) (exLooseState.world.bodies (0 : Fin 1)) (s.world.bodies (0 : Fin 1))) = true := by
  decide +kernel

/-- **C74** is false as documented: with `alpha = 0` (documented as FLIP) a force-free, stress-free body does not keep its
velocities. -/
theorem usl_alpha_reversed : ∃ st' s s', uslCall ratFns exPicSolver exLooseState = .ok st' ∧
    exLooseState.world.bodies (0 : Fin 1) = .deformable s ∧ st'.world.bodies (0 : Fin 1) = .deformable s' ∧
    exPicSolver.alpha = 0 ∧ ¬ ∀ p a, s'.velocity p a =
      documentedBlend exPicSolver.alpha ((s'.position p a - s.position p a) / exLooseState.dt) (s.velocity p a) := by
  obtain ⟨st', h⟩ := isOk_ok exPic_ok.1
  have hb := checkOk_ok exPic_eval st' h
  cases hs : st'.world.bodies (0 : Fin 1) with
  | rigid _ =>
    have := usl_alpha_partial [] (.inl rfl) rfl (fun _ => LibLaw.onlyStress (.elastic 1000 (1 / 4) false)) h
      (exPic_regular exPic_ok.2.2) (by norm_num [exLooseState, exState]) exLoose_stress (exCoupling .linear)
      (by simp [exPicSolver, exFreeSolver, exSolver]) rfl
    obtain ⟨_, s', -, e, -⟩ := this
    exact absurd (hs.symm.trans e) (by simp)
  | deformable s' =>
    rw [hs] at hb
    refine ⟨st', _, s', h, rfl, hs, rfl, fun hd => ?_⟩
    simp only [documentedB, exLooseState, Bool.not_eq_true', decide_eq_false_iff_not] at hb
    exact hb hd

end Hydrax
