import Verif.Props.FreeFall
import Verif.Props.Dependence

/-!
# Short time steps (C151)
-/

set_option linter.unusedSectionVars false

namespace Hydrax
open Spec Filter Topology

section
variable {z : Sz} {K : Type*} [Field K] [LinearOrder K] [IsStrictOrderedRing K] [FloorRing K] {dim : ℕ}
  {SS LS : Type*} {fn : MathFns K} {sv : Solver z K dim SS LS (ForceState K dim)}

/-- Everything but stress and velocity gradient. -/
def SameShape (n : ℕ) (s s' : MPState K dim n) : Prop :=
  s'.mass = s.mass ∧ s'.velocity = s.velocity ∧ s'.position = s.position ∧ s'.F = s.F ∧ s'.volume = s.volume ∧ s'.volume0 = s.volume0

theorem law_fold_shape (hL : ∀ c, (sv.laws c).OnlyStress) (hreset : ∀ c, (sv.laws c).requiresFReset = false) (dt : K) (cs : List (Coupling z))
    (x x' : Ctx z K dim SS LS (ForceState K dim)) (h : foldE (lawCoupling fn sv.laws dt) x cs = .ok x') :
    ∀ p, Body.Rel SameShape (x.world.bodies p) (x'.world.bodies p) := by
  refine foldE_rel (R := fun (x x' : Ctx z K dim SS LS (ForceState K dim)) => ∀ p, Body.Rel SameShape (x.world.bodies p) (x'.world.bodies p))
    (fun _ _ => Body.Rel.refl (fun _ _ => ⟨rfl, rfl, rfl, rfl, rfl, rfl⟩) _)
    (fun a b c h1 h2 p => (h1 p).trans (R := SameShape)
      (fun n a b c h1 h2 => ⟨h2.1.trans h1.1, h2.2.1.trans h1.2.1, h2.2.2.1.trans h1.2.2.1,
        h2.2.2.2.1.trans h1.2.2.2.1, h2.2.2.2.2.1.trans h1.2.2.2.2.1, h2.2.2.2.2.2.trans h1.2.2.2.2.2⟩) (h2 p)) cs x x' ?_ h
  intro c _ y y' hy
  cases hs : c.skip with
  | true =>
    rw [lawCoupling_skip hs hy]
    exact fun _ => Body.Rel.refl (fun _ _ => ⟨rfl, rfl, rfl, rfl, rfl, rfl⟩) _
  | false =>
    obtain ⟨s, r, hb, hr, rfl⟩ := lawCoupling_ok hs hy
    refine rel_setBody (fun _ _ => ⟨rfl, rfl, rfl, rfl, rfl, rfl⟩) y c.p _ ?_
    rw [hb]
    have := hL c.c s _ dt r hr
    change SameShape _ s (removeShear fn _ r.1)
    rw [this, hreset]
    exact ⟨rfl, rfl, rfl, rfl, rfl, rfl⟩

/-- Velocity of the grid at point `q` of the body of coupling `c`: nodal velocities, momentum over mass, weighted by the kernel. -/
def Spec.gridVelocity (sv : Solver z K dim SS LS (ForceState K dim)) (st : SimState z K dim SS LS (ForceState K dim)) (c : Coupling z)
    (s : MPState K dim (z.np c.p)) (q : Fin (z.np c.p)) (a : Fin dim) : K :=
  let ic := compute c.ker (sv.domains c.g) s.position
  pointSum ic (fun i => ic.shapeVal i *
    (gridSum sv.couplings c.g (fun b => (st.world.bodies b.p).nodeMoment b.ker (sv.domains b.g) (ic.nodeHash i) a) /
      gridSum sv.couplings c.g (fun b => (st.world.bodies b.p).nodeMass b.ker (sv.domains b.g) (ic.nodeHash i)))) q

/-- A body whose volumes are those of its deformation, in plane strain if the scene is flat. -/
structure Spec.Shaped {n : ℕ} (s : MPState K dim n) : Prop where
  plane : dim = 2 → ∀ p, s.F p 2 2 = 1
  volume : ∀ p, s.volume p = (s.F p).det * s.volume0 p

/-- **C151**: a step of zero length changes no position, deformation and volume; velocities are blended with those of the grid. -/
theorem zero_step (gravs : List (List (Fin z.G) × ℕ)) (hdim : dim = 2 ∨ dim = 3) (hforces : sv.forces = gravityList gravs)
    (hL : ∀ c, (sv.laws c).OnlyStress) (hreset : ∀ c, (sv.laws c).requiresFReset = false) {st st' : SimState z K dim SS LS (ForceState K dim)}
    (h : uslCall fn sv st = .ok st') (hr : Regular uslCutoff sv st.world) (hdt : st.dt = 0)
    (hb : ∀ c ∈ sv.couplings, c.skip = false → ∀ s, st.world.bodies c.p = .deformable s → Shaped s) :
    ∀ c ∈ sv.couplings, c.skip = false → ∃ s s', st.world.bodies c.p = .deformable s ∧ st'.world.bodies c.p = .deformable s' ∧
      s'.position = s.position ∧ s'.F = s.F ∧ s'.volume = s.volume ∧
      ∀ q a, s'.velocity q a = sv.alpha * s.velocity q a + (1 - sv.alpha) * gridVelocity sv st c s q a := by
  obtain ⟨grids, f, x3, x4, S⟩ := usl_stages gravs hdim hforces h hr
  intro c hc hs
  obtain ⟨s, e1, hgc, hm, e2⟩ := S.body c hc hs
  have hsh := hb c hc hs s e1
  have hnt : (grids c.g).momentNt = (grids c.g).moment := by
    rw [S.momentNt c hc hs, hdt]
    simp
  have hnonneg : ∀ j, ∀ b ∈ sv.couplings, b.skip = false → 0 ≤ (st.world.bodies b.p).nodeMass b.ker (sv.domains b.g) j := by
    intro j b hb hsb
    obtain ⟨t, f1, hgb, hmb, -⟩ := S.body b hb hsb
    rw [f1]
    exact nodeMass_nonneg hgb t.mass (fun q => (hmb q).le) j
  have hvel : ∀ q a, pointSum (compute c.ker (sv.domains c.g) s.position) (fun i => (compute c.ker (sv.domains c.g) s.position).shapeVal i *
      nodeVel uslCutoff ((grids c.g).mass ((compute c.ker (sv.domains c.g) s.position).nodeHash i))
        ((grids c.g).moment ((compute c.ker (sv.domains c.g) s.position).nodeHash i) a)) q = gridVelocity sv st c s q a := by
    intro q a
    refine congrArg (pointSum _ · q) (funext fun i => ?_)
    by_cases h0 : (compute c.ker (sv.domains c.g) s.position).shapeVal i = 0
    · simp only [h0, zero_mul]
    · congr 1
      set j := (compute c.ker (sv.domains c.g) s.position).nodeHash i with hj
      have hpos : 0 < (grids c.g).mass j := by
        refine lt_of_le_of_ne (S.mass_nonneg _ _) fun e => h0 ?_
        have hz := gridSum_term_zero sv.couplings c.g _ (hnonneg j) ((S.mass c.g j).symm.trans e.symm) c hc hs rfl
        rw [e1] at hz
        exact val_zero_of_nodeMass hgc s.mass hm j hz i rfl
      have hcut : uslCutoff < (grids c.g).mass j := by
        have := hr.cutoff c.g j
        rw [← S.mass] at this
        exact this hpos
      rw [nodeVel, if_pos hcut, if_pos hcut, S.moment, ← S.mass]
  have hrel := law_fold_shape hL hreset st.dt sv.couplings x3 x4 S.law c.p
  rw [e2] at hrel
  rw [S.world']
  cases hb4 : x4.world.bodies c.p with
  | rigid r => rw [hb4] at hrel; exact hrel.elim
  | deformable s' =>
    rw [hb4] at hrel
    obtain ⟨-, r2, r3, r4, r5, -⟩ := hrel
    have hF : s'.F = s.F := by
      rw [r4]
      funext q
      simp only [g2pBody, hdt, zero_smul, sub_zero, one_mul]
      split_ifs with h2
      · exact set22_self (hsh.plane h2 q)
      · rfl
    refine ⟨s, s', e1, rfl, ?_, hF, ?_, fun q a => ?_⟩
    · rw [r3]
      funext q a
      simp [g2pBody, hdt, resetBody]
    · rw [r5]
      funext q
      have : (g2pBody sv.alpha st.dt (compute c.ker (sv.domains c.g) s.position) none (grids c.g) (resetBody s)).volume q =
          ((g2pBody sv.alpha st.dt (compute c.ker (sv.domains c.g) s.position) none (grids c.g) (resetBody s)).F q).det * s.volume0 q := rfl
      rw [this, ← r4, hF, hsh.volume q]
    · rw [r2]
      simp only [g2pBody, ghostBlend, hnt, hvel, sub_self, mul_zero, resetBody]
      rw [show pointSum (compute c.ker (sv.domains c.g) s.position) (fun _ => (0 : K)) q = 0 from pointSum_zero _ _ (fun _ => rfl) q]
      ring

/-- A scene that the grid cannot see: stress-free bodies whose momenta cancel at every node, with laws at rest. -/
structure Spec.Unseen (sv : Solver z K dim SS LS (ForceState K dim)) (Q : Fin z.C → LS → Prop)
    (st : SimState z K dim SS LS (ForceState K dim)) : Prop where
  stress : ∀ c ∈ sv.couplings, c.skip = false → ∀ s, st.world.bodies c.p = .deformable s → ∀ q, s.stress q = 0
  shaped : ∀ c ∈ sv.couplings, c.skip = false → ∀ s, st.world.bodies c.p = .deformable s → Shaped s
  momentum : ∀ g j a, gridSum sv.couplings g (fun b => (st.world.bodies b.p).nodeMoment b.ker (sv.domains b.g) j a) = 0
  laws : ∀ c, Q c (st.mech.laws c)

/-- One step of a scene that the grid cannot see. -/
theorem unseen_step {Q : Fin z.C → LS → Prop} (hdim : dim = 2 ∨ dim = 3) (hforces : sv.forces = []) (hL : ∀ c, (sv.laws c).OnlyStress)
    (hrest : ∀ c, StaysAtRest (Q c) (sv.laws c)) (hreset : ∀ c, (sv.laws c).requiresFReset = false)
    {st st' : SimState z K dim SS LS (ForceState K dim)} (h : uslCall fn sv st = .ok st') (hr : Regular uslCutoff sv st.world)
    (ht : Unseen sv Q st) :
    Unseen sv Q st' ∧ ∀ c ∈ sv.couplings, c.skip = false → ∃ s s', st.world.bodies c.p = .deformable s ∧ st'.world.bodies c.p = .deformable s' ∧
      s'.position = s.position ∧ s'.F = s.F ∧ s'.volume = s.volume ∧ s'.stress = s.stress ∧ s'.velocity = sv.alpha • s.velocity := by
  obtain ⟨grids, f, x3, x4, S⟩ := usl_stages (gravs := []) hdim hforces h hr
  have hf := S.stressfree ht.stress
  have hmom : ∀ g j a, (grids g).moment j a = 0 := fun g j a => by rw [S.moment]; exact ht.momentum g j a
  have hforce : ∀ g j a, (grids g).force j a = 0 := fun g j a => by
    rw [S.force, hf]
    simp [gridAccel]
  have hbody : ∀ c ∈ sv.couplings, c.skip = false → ∃ s s', st.world.bodies c.p = .deformable s ∧ x3.world.bodies c.p = .deformable s' ∧
      s'.position = s.position ∧ s'.F = s.F ∧ s'.volume = s.volume ∧ s'.volume0 = s.volume0 ∧ s'.stress = s.stress ∧ s'.mass = s.mass ∧
      s'.velocity = sv.alpha • s.velocity ∧ ∀ q, s'.L q = 0 := by
    intro c hc hs
    obtain ⟨s, e1, hgc, hm, e2⟩ := S.body c hc hs
    have hsh := ht.shaped c hc hs s e1
    have hnt : ∀ j a, (grids c.g).momentNt j a = 0 := fun j a => by
      rw [S.momentNt c hc hs]
      simp [hmom, hforce]
    set s' := g2pBody sv.alpha st.dt (compute c.ker (sv.domains c.g) s.position) none (grids c.g) (resetBody s) with hs'
    have hz : ∀ q, pointSum (compute c.ker (sv.domains c.g) s.position) (fun _ => (0 : K)) q = 0 := fun q => pointSum_zero _ _ (fun _ => rfl) q
    have hL0 : ∀ q, s'.L q = 0 := by
      intro q
      have hp : pad3 (fun _ : Fin dim => (0 : K)) = fun _ => 0 := by
        funext k
        unfold pad3
        split_ifs <;> rfl
      have h0 : (fun j k => pointSum (compute c.ker (sv.domains c.g) s.position) (fun i => (compute c.ker (sv.domains c.g) s.position).shapeGrad i j *
          -(pad3 (fun _ : Fin dim => (0 : K)) k)) q : Mat3 K) = 0 := by
        funext j k
        simp only [hp, neg_zero, mul_zero, hz]
        rfl
      simp only [hs', g2pBody, ghostBlend, hnt, nodeVel_zero]
      rw [h0]
      have hz2 : set22 (0 : Mat3 K) 0 = 0 := set22_self rfl
      exact (congrArg (fun M => if dim = 2 then M else 0) hz2).trans (ite_self _)
    have hF : s'.F = s.F := by
      funext q
      have : s'.F q = if dim = 2 then set22 ((1 - st.dt • s'.L q) * s.F q) 1 else (1 - st.dt • s'.L q) * s.F q := rfl
      rw [this, hL0 q, smul_zero, sub_zero, one_mul]
      split_ifs with h2
      · exact set22_self (hsh.plane h2 q)
      · rfl
    refine ⟨s, s', e1, e2, ?_, hF, ?_, rfl, rfl, rfl, ?_, hL0⟩
    · funext q a
      simp only [hs', g2pBody, ghostBlend, hnt, nodeVel_zero, mul_zero, hz, zero_mul, add_zero, resetBody]
    · funext q
      have : s'.volume q = (s'.F q).det * s.volume0 q := rfl
      rw [this, hF, hsh.volume q]
    · funext q a
      simp only [hs', g2pBody, ghostBlend, hnt, hmom, nodeVel_zero, mul_zero, sub_self, hz, add_zero, zero_add, resetBody, Pi.smul_apply, smul_eq_mul]
  obtain ⟨l1, l2⟩ := law_fold_rest hL hrest hreset st.dt sv.couplings x3 x4 S.law
    (by rw [S.mech]; exact ht.laws) (by
      intro c hc hs t hb q
      obtain ⟨s, s', e1, e2, -, -, -, -, m, -, -, hz⟩ := hbody c hc hs
      rw [hb] at e2
      cases e2
      exact ⟨hz q, by rw [m]; exact ht.stress c hc hs s e1 q⟩)
  have hfin : ∀ c ∈ sv.couplings, c.skip = false → ∃ s s', st.world.bodies c.p = .deformable s ∧ st'.world.bodies c.p = .deformable s' ∧
      s'.position = s.position ∧ s'.F = s.F ∧ s'.volume = s.volume ∧ s'.volume0 = s.volume0 ∧ s'.stress = s.stress ∧ s'.mass = s.mass ∧
      s'.velocity = sv.alpha • s.velocity := by
    intro c hc hs
    obtain ⟨s, s', e1, e2, m1, m2, m3, m4, m5, m6, m7, -⟩ := hbody c hc hs
    exact ⟨s, s', e1, by rw [S.world']; exact l2 _ _ e2, m1, m2, m3, m4, m5, m6, m7⟩
  refine ⟨⟨fun c hc hs t hb q => ?_, fun c hc hs t hb => ?_, fun g j a => ?_, by rw [S.mech']; exact l1⟩, fun c hc hs => ?_⟩
  · obtain ⟨s, s', e1, e2, -, -, -, -, m, -, -⟩ := hfin c hc hs
    rw [hb] at e2
    cases e2
    rw [m]; exact ht.stress c hc hs s e1 q
  · obtain ⟨s, s', e1, e2, -, m2, m3, m4, -, -, -⟩ := hfin c hc hs
    rw [hb] at e2
    cases e2
    have := ht.shaped c hc hs s e1
    exact ⟨fun h2 p => by rw [m2]; exact this.plane h2 p, fun p => by rw [m3, m2, m4]; exact this.volume p⟩
  · have hsum : gridSum sv.couplings g (fun b => (st'.world.bodies b.p).nodeMoment b.ker (sv.domains b.g) j a) =
        gridSum sv.couplings g (fun b => (st.world.bodies b.p).nodeMoment b.ker (sv.domains b.g) j a) * sv.alpha := by
      rw [gridSum_mul]
      refine gridSum_congr _ _ _ _ fun c hc hs hg => ?_
      obtain ⟨s, s', e1, e2, m1, -, -, -, -, m6, m7⟩ := hfin c hc hs
      rw [e1, e2]
      simp only [Body.nodeMoment, m1, m6, m7, scatterAdd, Finset.sum_mul, Pi.smul_apply, smul_eq_mul]
      refine Finset.sum_congr rfl fun i _ => ?_
      split_ifs
      · ring
      · ring
    rw [hsum, ht.momentum, zero_mul]
  · obtain ⟨s, s', e1, e2, m1, m2, m3, -, m5, -, m7⟩ := hfin c hc hs
    exact ⟨s, s', e1, e2, m1, m2, m3, m5, m7⟩

/-- **C151**, refuted for a blend `alpha` below one: motion that the grid cannot see loses the factor `alpha` in every step, whatever the
length of the step. Nothing moves meanwhile, so the result after a given time depends on the number of steps alone. -/
theorem unseen_decays {Q : Fin z.C → LS → Prop} (hdim : dim = 2 ∨ dim = 3) (hforces : sv.forces = []) (hL : ∀ c, (sv.laws c).OnlyStress)
    (hrest : ∀ c, StaysAtRest (Q c) (sv.laws c)) (hreset : ∀ c, (sv.laws c).requiresFReset = false) (n : ℕ)
    {st st' : SimState z K dim SS LS (ForceState K dim)} (h : runSteps (uslCall fn sv) (n + 1) st = .ok st')
    (hr : AlongRun fn sv (n + 1) st (Regular uslCutoff sv)) (ht : Unseen sv Q st) :
    Unseen sv Q st' ∧ ∀ c ∈ sv.couplings, c.skip = false → ∃ s s', st.world.bodies c.p = .deformable s ∧ st'.world.bodies c.p = .deformable s' ∧
      s'.position = s.position ∧ s'.F = s.F ∧ s'.volume = s.volume ∧ s'.stress = s.stress ∧ s'.velocity = sv.alpha ^ (n + 1) • s.velocity := by
  induction n generalizing st' with
  | zero =>
    obtain ⟨s1, h1, h2⟩ := runSteps_succ_ok.mp h
    have : st = s1 := by simpa [runSteps] using h1
    subst this
    rw [zero_add, pow_one]
    exact unseen_step hdim hforces hL hrest hreset h2 (hr 0 (by omega) _ h1) ht
  | succ n ih =>
    obtain ⟨s1, h1, h2⟩ := runSteps_succ_ok.mp h
    obtain ⟨t1, b1⟩ := ih h1 (fun i hi => hr i (by omega))
    obtain ⟨t2, b2⟩ := unseen_step hdim hforces hL hrest hreset h2 (hr (n + 1) (by omega) _ h1) t1
    refine ⟨t2, fun c hc hs => ?_⟩
    obtain ⟨s, s', e1, e2, m1, m2, m3, m4, m5⟩ := b1 c hc hs
    obtain ⟨t, t', f1, f2, k1, k2, k3, k4, k5⟩ := b2 c hc hs
    rw [e2] at f1
    cases f1
    exact ⟨s, t', e1, f2, k1.trans m1, k2.trans m2, k3.trans m3, k4.trans m4, by rw [k5, m5, smul_smul, ← pow_succ']⟩

end

section
variable {z : Sz} {dim : ℕ} {SS : Type*} {sv : Solver z ℝ dim SS (LawState ℝ) (ForceState ℝ dim)}

/-- **C151**: as the length of a step goes to zero, positions, deformations and volumes approach those before the step, and velocities approach
their blend with the grid: the velocities before the step for `alpha = 1`. Scenes with smooth kernels under gravity, no node at the cutoff
mass and no point where its law jumps. -/
theorem short_step_partial (hsv : SmoothSetup sv) (hL : ∀ c, (sv.laws c).OnlyStress) (hreset : ∀ c, (sv.laws c).requiresFReset = false)
    (st y0 : SimState z ℝ dim SS (LawState ℝ) (ForceState ℝ dim)) (h0 : uslCall realFns sv { st with dt := 0 } = .ok y0)
    (hr : Regular uslCutoff sv st.world) (hm : MassClear sv st) (hl : LawsClear sv y0)
    (hb : ∀ c ∈ sv.couplings, c.skip = false → ∀ s, st.world.bodies c.p = .deformable s → Shaped s) :
    ∃ y : ℝ → SimState z ℝ dim SS (LawState ℝ) (ForceState ℝ dim), (∀ τ, uslCall realFns sv { st with dt := τ } = .ok (y τ)) ∧
      ∀ c ∈ sv.couplings, c.skip = false → ∃ (s : MPState ℝ dim (z.np c.p)) (s' : ℝ → MPState ℝ dim (z.np c.p)),
        st.world.bodies c.p = .deformable s ∧ (∀ τ, (y τ).world.bodies c.p = .deformable (s' τ)) ∧
        (∀ q a, Tendsto (fun τ => (s' τ).position q a) (𝓝 0) (𝓝 (s.position q a))) ∧
        (∀ q i j, Tendsto (fun τ => (s' τ).F q i j) (𝓝 0) (𝓝 (s.F q i j))) ∧
        (∀ q, Tendsto (fun τ => (s' τ).volume q) (𝓝 0) (𝓝 (s.volume q))) ∧
        ∀ q a, Tendsto (fun τ => (s' τ).velocity q a) (𝓝 0) (𝓝 (sv.alpha * s.velocity q a + (1 - sv.alpha) * gridVelocity sv st c s q a)) := by
  obtain ⟨gravs, hf⟩ := hsv.gravity
  have hcont : StateCont (fun τ : ℝ => { st with dt := τ }) 0 := by
    refine ⟨fun p => ?_, fun c => .inr (.inr (.inr fun _ => rfl)), ?_, continuousAt_const, continuousAt_id⟩
    · cases hbp : st.world.bodies p with
      | deformable s =>
        exact .inl ⟨fun _ => s, fun _ => hbp, ⟨fun _ _ => continuousAt_const, fun _ _ => continuousAt_const, fun _ _ => continuousAt_const,
          fun _ => continuousAt_const, fun _ => continuousAt_const, fun _ => continuousAt_const, fun _ _ _ => continuousAt_const,
          fun _ _ _ => continuousAt_const, fun _ _ _ => continuousAt_const, fun _ => rfl⟩⟩
      | rigid r =>
        exact .inr ⟨fun _ => r, fun _ => hbp, fun _ _ => continuousAt_const, fun _ _ => continuousAt_const, fun _ => continuousAt_const,
          fun _ _ => continuousAt_const⟩
    · exact fun k => .inr fun _ => rfl
  obtain ⟨y, hy, hy0, hyc⟩ := call_continuous_partial hsv (fun τ : ℝ => { st with dt := τ }) hcont y0 h0 hm hl
  refine ⟨y, hy, fun c hc hs => ?_⟩
  obtain ⟨s, s0, e1, e2, m1, m2, m3, m4⟩ := zero_step gravs hsv.dim23 hf hL hreset h0 hr rfl hb c hc hs
  rcases hyc.bodies c.p with ⟨s', k1, k2⟩ | ⟨r, k1, -⟩
  · have hs0 : s' 0 = s0 := by
      have : (y 0).world.bodies c.p = _ := k1 0
      rw [hy0, e2] at this
      exact (Body.deformable.inj this).symm
    refine ⟨s, s', e1, k1, fun q a => ?_, fun q i j => ?_, fun q => ?_, fun q a => ?_⟩
    · have := (k2.position q a).tendsto
      rwa [hs0, m1] at this
    · have := (k2.F q i j).tendsto
      rwa [hs0, m2] at this
    · have := (k2.volume q).tendsto
      rwa [hs0, m3] at this
    · have := (k2.velocity q a).tendsto
      rw [hs0, m4] at this
      exact this
  · have : (y 0).world.bodies c.p = _ := k1 0
    rw [hy0, e2] at this
    cases this

end

/-! ### Examples -/

/-- Two points at the same place that pass through each other. -/
def exUnseen (dt : ℚ) : SimState exSz ℚ 2 Unit (LawState ℚ) (ForceState ℚ 2) :=
  { exState with
    world := { bodies := fun _ => .deformable { exBody with
                 position := fun _ => ![1 / 3, 9 / 10], velocity := ![![1, 2], ![-1, -2]], mass := fun _ => 1, stress := fun _ => 0 },
               sdfs := Fin.elim0 }
    dt := dt }

set_option maxRecDepth 100000 in
theorem exUnseen_ok : (runSteps (uslCall ratFns exFreeSolver) 1 (exUnseen (1 / 100))).isOk = true ∧
    (runSteps (uslCall ratFns exFreeSolver) 2 (exUnseen (1 / 200))).isOk = true := by decide +kernel

set_option maxRecDepth 100000 in
theorem exUnseen_regular : exRegularB uslCutoff (exUnseen 0).world = true ∧
    checkOk (runSteps (uslCall ratFns exFreeSolver) 1 (exUnseen (1 / 200))) (fun s => exRegularB uslCutoff s.world) = true := by
  decide +kernel

/-- Two points at one place, of one mass and with opposite velocities, give no momentum to any node. -/
theorem opposite_moment {K : Type*} [Field K] [LinearOrder K] [IsStrictOrderedRing K] [FloorRing K] {dim : ℕ} (ker : Kernel)
    (g : GridDomain K dim) (s : MPState K dim 2) (hx : s.position 1 = s.position 0) (hm : s.mass 1 = s.mass 0)
    (hv : ∀ a, s.velocity 1 a = -s.velocity 0 a) (j : ℕ) (a : Fin dim) : (Body.deformable s).nodeMoment ker g j a = 0 := by
  have h := sum_interactions 2 (windowSize ker dim) (fun p t => if (computeSingle ker g (s.position p) t.val).nodeHash = j then
    (computeSingle ker g (s.position p) t.val).shapeVal * s.mass p * s.velocity p a else 0)
  refine Eq.trans h ?_
  rw [Fin.sum_univ_two, ← Finset.sum_add_distrib]
  refine Finset.sum_eq_zero fun t _ => ?_
  rw [hx, hm, hv]
  split_ifs
  · ring
  · ring

theorem exUnseen_unseen (dt : ℚ) : Unseen exFreeSolver (fun _ _ => True) (exUnseen dt) := by
  refine ⟨fun c hc _ s hb q => ?_, fun c hc _ s hb => ?_, fun g j a => ?_, fun _ => trivial⟩
  · cases hb; rfl
  · cases hb
    exact ⟨fun _ p => by simp [exBody, MPState.create], fun p => by simp [exBody, MPState.create]⟩
  · obtain rfl : g = 0 := Subsingleton.elim _ _
    simp only [gridSum, exFreeSolver, exSolver, List.map_cons, List.map_nil, List.sum_cons, List.sum_nil, add_zero]
    rw [if_pos ⟨rfl, rfl⟩]
    refine opposite_moment .linear _ _ (by rfl) (by rfl) (fun a => ?_) j a
    fin_cases a <;> norm_num

/-- **C151**, refuted for the blend `0.99`: two points that pass through each other in the same cell, once with one step of length 1/100 and
once with two steps of length 1/200. Both runs end at the same time and nothing has moved, but the velocities differ by one percent. -/
theorem steps_not_time : ∃ st1 st2 s1 s2, runSteps (uslCall ratFns exFreeSolver) 1 (exUnseen (1 / 100)) = .ok st1 ∧
    runSteps (uslCall ratFns exFreeSolver) 2 (exUnseen (1 / 200)) = .ok st2 ∧
    st1.world.bodies (0 : Fin 1) = .deformable s1 ∧ st2.world.bodies (0 : Fin 1) = .deformable s2 ∧ s1.position = s2.position ∧
    s1.velocity 0 = ![99 / 100, 99 / 50] ∧ s2.velocity 0 = (99 / 100 : ℚ) • s1.velocity 0 := by
  obtain ⟨st1, h1⟩ := isOk_ok exUnseen_ok.1
  obtain ⟨st2, h2⟩ := isOk_ok exUnseen_ok.2
  have r1 : AlongRun ratFns exFreeSolver 1 (exUnseen (1 / 100)) (Regular uslCutoff exFreeSolver) := by
    intro i hi si hs
    obtain rfl : i = 0 := by omega
    have : exUnseen (1 / 100) = si := by simpa [runSteps] using hs
    exact this ▸ exFree_regular exUnseen_regular.1
  have r2 : AlongRun ratFns exFreeSolver 2 (exUnseen (1 / 200)) (Regular uslCutoff exFreeSolver) := by
    intro i hi si hs
    obtain rfl | rfl : i = 0 ∨ i = 1 := by omega
    · have : exUnseen (1 / 200) = si := by simpa [runSteps] using hs
      exact this ▸ exFree_regular exUnseen_regular.1
    · exact exFree_regular (checkOk_ok exUnseen_regular.2 si hs)
  obtain ⟨-, b1⟩ := unseen_decays (.inl rfl) rfl (fun _ => LibLaw.onlyStress (.elastic 1000 (1 / 4) false))
    (fun _ => elastic_staysAtRest 1000 (1 / 4) false) (fun _ => rfl) 0 h1 r1 (exUnseen_unseen _)
  obtain ⟨-, b2⟩ := unseen_decays (.inl rfl) rfl (fun _ => LibLaw.onlyStress (.elastic 1000 (1 / 4) false))
    (fun _ => elastic_staysAtRest 1000 (1 / 4) false) (fun _ => rfl) 1 h2 r2 (exUnseen_unseen _)
  obtain ⟨s, s1, e1, e2, m1, -, -, -, m2⟩ := b1 (exCoupling .linear) (by simp [exFreeSolver, exSolver]) rfl
  obtain ⟨t, s2, f1, f2, k1, -, -, -, k2⟩ := b2 (exCoupling .linear) (by simp [exFreeSolver, exSolver]) rfl
  have e1 := Body.deformable.inj e1
  have f1 := Body.deformable.inj f1
  subst e1 f1
  refine ⟨st1, st2, s1, s2, h1, h2, e2, f2, m1.trans k1.symm, ?_, ?_⟩
  · rw [m2]
    funext a
    fin_cases a <;> norm_num [exFreeSolver, exSolver]
  · rw [k2, m2]
    funext a
    fin_cases a <;> norm_num [exFreeSolver, exSolver]

set_option maxRecDepth 100000 in
theorem exStill_ok : (uslCall ratFns exFreeSolver { exMovingState with dt := 0 }).isOk = true := by decide +kernel

/-- `zero_step` on the moving body. -/
example : ∃ st' s', uslCall ratFns exFreeSolver { exMovingState with dt := 0 } = .ok st' ∧
    st'.world.bodies (0 : Fin 1) = .deformable s' ∧ s'.position 0 = ![1 / 3, 9 / 10] := by
  obtain ⟨st', h⟩ := isOk_ok exStill_ok
  obtain ⟨s, s', e1, e2, m, -⟩ := zero_step [] (.inl rfl) rfl (fun _ => LibLaw.onlyStress (.elastic 1000 (1 / 4) false)) (fun _ => rfl) h
    (exFree_regular exMoving_regular.1) rfl
    (fun c hc _ s hb => by
      cases hb
      exact ⟨fun _ p => by simp [exBody, MPState.create], fun p => by simp [exBody, MPState.create]⟩)
    (exCoupling .linear) (by simp [exFreeSolver, exSolver]) rfl
  have e1 := Body.deformable.inj e1
  subst e1
  exact ⟨st', s', h, e2, by rw [m]; rfl⟩

/-- One point of mass one on a node of a padded grid, thrown with velocity `(1, 0)`, blended half and half. -/
noncomputable def shortSv : Solver { exSz with np := fun _ => 1 } ℝ 2 Unit (LawState ℝ) (ForceState ℝ 2) :=
  { thrownSv with alpha := 1 / 2, domains := fun _ => GridDomain.create (fun _ => 0) (fun _ => 4) 1 2, laws := fun _ => elasticLaw 1000 (1 / 4) false }

theorem short_mass (j : ℕ) :
    nodeMass (compute .quadratic (GridDomain.create (fun _ => 0) (fun _ => 4) 1 2) (pointAt 0).position) (fun _ => (1 : ℝ)) j ∈
      AddSubgroup.zmultiples (1 / 64 : ℝ) := by
  have hg : ∀ d, 0 < (GridDomain.create (fun _ : Fin 2 => (0 : ℝ)) (fun _ => 4) 1 2).gridSize d :=
    create_gridSize_pos _ _ _ one_pos _ (fun _ => by norm_num)
  have h2 := scatter_nodes (.inl rfl) .quadratic _ hg (pointAt 0).position (fun _ I => I.shapeVal * 1) (fun p I h _ => by rw [h, zero_mul]) j
  change scatterAdd _ _ _ ∈ _
  refine Eq.mpr (congrArg (· ∈ AddSubgroup.zmultiples (1 / 64 : ℝ)) h2) (sum_mem fun p _ => sum_mem fun k _ => ?_)
  split_ifs
  · obtain ⟨a, ha⟩ := quadratic_eighths (4 - (k 0 : ℕ))
    obtain ⟨b, hb⟩ := quadratic_eighths (4 - (k 1 : ℕ))
    refine AddSubgroup.mem_zmultiples_iff.2 ⟨a * b, ?_⟩
    have e0 : (nodeInter .quadratic (GridDomain.create (fun _ => 0) (fun _ => 4) 1 2) ((pointAt 0).position p) fun d => (k d : ℕ)).shapeVal =
        quadraticBasis (4 - ((k 0 : ℕ) : ℝ)) * quadraticBasis (4 - ((k 1 : ℕ) : ℝ)) := by
      norm_num [nodeInter, basePos, GridDomain.create, pointAt, basis1]
    push_cast at ha hb
    rw [e0, ha, hb, zsmul_eq_mul]
    push_cast; ring
  · exact zero_mem _

theorem short_massOn (g j) : massOn shortSv (thrownSt 0) g j ∈ AddSubgroup.zmultiples (1 / 64 : ℝ) := by
  have : g = 0 := Subsingleton.elim _ _
  subst this
  have h := short_mass j
  simp only [massOn, gridSum, shortSv, thrownSv, List.map_cons, List.map_nil, List.sum_cons, List.sum_nil, add_zero, true_and, if_true]
  exact h

theorem short_clear : MassClear shortSv (thrownSt 0) := by
  intro g j h4
  have h3 := short_massOn g j
  rw [h4] at h3
  obtain ⟨k, hk⟩ := AddSubgroup.mem_zmultiples_iff.1 h3
  rw [zsmul_eq_mul] at hk
  have : (k : ℝ) * 10 ^ 12 = 64 := by field_simp at hk; linarith
  have : k * 10 ^ 12 = 64 := by exact_mod_cast this
  omega

theorem short_regular : Regular uslCutoff shortSv (thrownSt 0).world where
  single := by simp [shortSv, thrownSv]
  box c hc _ := ⟨_, _, _, _, one_pos, le_rfl, rfl, fun q d => by
    fin_cases d <;> norm_num [Body.position, thrownSt, pointAt]⟩
  mass_pos c hc _ s hb q := by
    cases hb; exact one_pos
  cutoff g j h := by
    have h3 := short_massOn g j
    obtain ⟨k, hk⟩ := AddSubgroup.mem_zmultiples_iff.1 h3
    rw [zsmul_eq_mul] at hk
    change (0 : ℝ) < massOn shortSv (thrownSt 0) g j at h
    change uslCutoff < massOn shortSv (thrownSt 0) g j
    rw [← hk] at h ⊢
    have hk0 : (0 : ℝ) < k := by linarith
    have : (1 : ℝ) ≤ k := by exact_mod_cast (by exact_mod_cast hk0 : (0 : ℤ) < k)
    unfold uslCutoff
    norm_num
    linarith

example : ∃ y : ℝ → SimState { exSz with np := fun _ => 1 } ℝ 2 Unit (LawState ℝ) (ForceState ℝ 2),
    (∀ τ, uslCall realFns shortSv { thrownSt 0 with dt := τ } = .ok (y τ)) ∧
    ∃ s' : ℝ → MPState ℝ 2 1, (∀ τ, (y τ).world.bodies (0 : Fin 1) = .deformable (s' τ)) ∧
      Tendsto (fun τ => (s' τ).position 0 0) (𝓝 0) (𝓝 2) := by
  obtain ⟨y0, h0⟩ : ∃ y, uslCall realFns shortSv { thrownSt 0 with dt := 0 } = .ok y := ⟨_, rfl⟩
  have hset : SmoothSetup shortSv :=
    { dim23 := .inl rfl, size := fun g => create_gridSize_pos _ _ _ one_pos _ (fun _ => by norm_num),
      kernel := thrown_setup.kernel, single := thrown_setup.single, gravity := thrown_setup.gravity }
  obtain ⟨y, h1, h2⟩ := short_step_partial hset (fun _ => LibLaw.onlyStress (.elastic 1000 (1 / 4) false)) (fun _ => rfl) (thrownSt 0) y0 h0
    short_regular short_clear
    (fun c hc hs => by
      have hc' := List.mem_singleton.1 (show c ∈ [_] from hc)
      subst hc'
      obtain ⟨s, hs⟩ : ∃ s, (Except.ok y0 : Except PyErr _) = .ok s ∧ ∃ b, s.world.bodies 0 = .deformable b := by
        rw [← h0]; exact ⟨_, rfl, _, rfl⟩
      obtain ⟨b, hb⟩ := hs.2
      rw [← Except.ok.inj hs.1] at hb
      exact ⟨b, hb, .elastic ..⟩)
    (fun c hc _ s hb => by
      cases hb
      exact ⟨fun _ p => by simp [pointAt], fun p => by simp [pointAt]⟩)
  obtain ⟨s, s', e1, e2, m, -⟩ := h2 { ker := .quadratic, p := (0 : Fin 1), g := (0 : Fin 1), c := (0 : Fin 1), s := (0 : Fin 1), skip := false }
    (List.mem_singleton.2 rfl) rfl
  refine ⟨y, h1, s', e2, ?_⟩
  have := m 0 0
  have e1 := Body.deformable.inj e1
  subst e1
  simpa [pointAt] using this

end Hydrax
