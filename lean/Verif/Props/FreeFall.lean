import Verif.Props.AflipMomentum

/-!
# A stress-free body falls along the parabola (C121)
-/

set_option linter.unusedSectionVars false

namespace Hydrax
open Spec

section
variable {z : Sz} {K : Type*} [Field K] [LinearOrder K] [IsStrictOrderedRing K] [FloorRing K] {dim : ℕ} {SS LS : Type*}
  {fn : MathFns K} {sv : Solver z K dim SS LS (ForceState K dim)}

/-- `s'` is `s` moved by `d` and faster by `dv`, otherwise the same. -/
structure Spec.Fallen {n : ℕ} (d dv : Fin dim → K) (s s' : MPState K dim n) : Prop where
  position : ∀ p, s'.position p = s.position p + d
  velocity : ∀ p, s'.velocity p = s.velocity p + dv
  F : s'.F = s.F
  volume : s'.volume = s.volume
  volume0 : s'.volume0 = s.volume0
  mass : s'.mass = s.mass
  stress : s'.stress = s.stress

/-- Gathering nodal velocities that all grew from `u` by `dv`. -/
theorem g2p_fall {n w N : ℕ} {c : InteractionCache K n w} (hc : GoodCache c N) (alpha dt : K) (gr : GridArrays K dim)
    (s : MPState K dim n) (u dv : Fin dim → K) (hs : Translating u s)
    (hv : ∀ i a, c.shapeVal i ≠ 0 → nodeVel uslCutoff (gr.mass (c.nodeHash i)) (gr.moment (c.nodeHash i) a) = u a ∧
      nodeVel uslCutoff (gr.mass (c.nodeHash i)) (gr.momentNt (c.nodeHash i) a) = u a + dv a) :
    Fallen (dt • (u + dv)) dv s (g2pBody alpha dt c none gr s) ∧ ∀ p, (g2pBody alpha dt c none gr s).L p = 0 := by
  have hw : ∀ i a, c.shapeVal i * nodeVel uslCutoff (gr.mass (c.nodeHash i)) (gr.momentNt (c.nodeHash i) a) =
      (u a + dv a) * c.shapeVal i := by
    intro i a
    by_cases h0 : c.shapeVal i = 0
    · rw [h0]; simp
    · rw [(hv i a h0).2]; ring
  have hd : ∀ i a, c.shapeVal i * (nodeVel uslCutoff (gr.mass (c.nodeHash i)) (gr.momentNt (c.nodeHash i) a) -
      nodeVel uslCutoff (gr.mass (c.nodeHash i)) (gr.moment (c.nodeHash i) a)) = dv a * c.shapeVal i := by
    intro i a
    by_cases h0 : c.shapeVal i = 0
    · rw [h0]; simp
    · rw [(hv i a h0).1, (hv i a h0).2]; ring
  have hg : ∀ i j k, c.shapeGrad i j * -(pad3 (fun a => nodeVel uslCutoff (gr.mass (c.nodeHash i))
      (gr.momentNt (c.nodeHash i) a)) k) = -(pad3 (u + dv) k) * c.shapeGrad i j := by
    intro i j k
    by_cases h0 : c.shapeVal i = 0
    · rw [hc.grad_zero i h0 j]; simp
    · rw [show (fun a => nodeVel uslCutoff (gr.mass (c.nodeHash i)) (gr.momentNt (c.nodeHash i) a)) = u + dv from
        funext fun a => (hv i a h0).2]
      ring
  have hvel : ∀ p a, pointSum c (fun i => c.shapeVal i * nodeVel uslCutoff (gr.mass (c.nodeHash i))
      (gr.momentNt (c.nodeHash i) a)) p = u a + dv a := by
    intro p a
    simp only [hw, pointSum_mul, hc.sum_val, mul_one]
  have hL : ∀ p, (g2pBody alpha dt c none gr s).L p = 0 := by
    intro p
    have h0 : (fun j k => pointSum c (fun i => c.shapeGrad i j * -(pad3 (fun a => nodeVel uslCutoff
        (gr.mass (c.nodeHash i)) (gr.momentNt (c.nodeHash i) a)) k)) p : Mat3 K) = 0 := by
      funext j k
      simp only [hg, pointSum_mul, hc.sum_grad, mul_zero]
      rfl
    simp only [g2pBody, ghostBlend]
    rw [h0]
    have hz : set22 (0 : Mat3 K) 0 = 0 := set22_self rfl
    exact (congrArg (fun M => if dim = 2 then M else 0) hz).trans (ite_self _)
  have hF : (g2pBody alpha dt c none gr s).F = s.F := by
    funext p
    have : (g2pBody alpha dt c none gr s).F p = if dim = 2 then
        set22 ((1 - dt • (g2pBody alpha dt c none gr s).L p) * s.F p) 1
      else (1 - dt • (g2pBody alpha dt c none gr s).L p) * s.F p := rfl
    rw [this, hL p, smul_zero, sub_zero, one_mul]
    split_ifs with h2
    · exact set22_self (hs.plane h2 p)
    · rfl
  refine ⟨⟨?_, ?_, hF, ?_, rfl, rfl, rfl⟩, hL⟩
  · intro p
    funext a
    simp only [g2pBody, ghostBlend, hvel, Pi.add_apply, Pi.smul_apply, smul_eq_mul]
    ring
  · intro p
    funext a
    simp only [g2pBody, ghostBlend, hvel, hd, hs.velocity, pointSum_mul, hc.sum_val, Pi.add_apply]
    ring
  · funext p
    have : (g2pBody alpha dt c none gr s).volume p = ((g2pBody alpha dt c none gr s).F p).det * s.volume0 p := rfl
    rw [this, hF, hs.volume p]

/-- **C121, one step.** A stress-free body moving with velocity `u` under gravities: its velocity grows by `dt` times the sum of the gravities
acting on its grid, it moves by `dt` times the new velocity, and nothing else changes. -/
theorem fall_step {Q : Fin z.C → LS → Prop} (gravs : List (List (Fin z.G) × ℕ)) (u : Fin z.G → Fin dim → K) (hdim : dim = 2 ∨ dim = 3)
    (hforces : sv.forces = gravityList gravs) (hL : ∀ c, (sv.laws c).OnlyStress)
    (hrest : ∀ c, StaysAtRest (Q c) (sv.laws c)) (hreset : ∀ c, (sv.laws c).requiresFReset = false)
    {st st' : SimState z K dim SS LS (ForceState K dim)}
    (h : uslCall fn sv st = .ok st') (hr : Regular uslCutoff sv st.world) (ht : SceneTranslating sv Q u st) :
    SceneTranslating sv Q (fun g a => u g a + st.dt * gridAccel st.mech.forces gravs g a) st' ∧
    ∀ c ∈ sv.couplings, c.skip = false → ∃ s s', st.world.bodies c.p = .deformable s ∧ st'.world.bodies c.p = .deformable s' ∧
      Fallen (st.dt • (u c.g + st.dt • gridAccel st.mech.forces gravs c.g)) (st.dt • gridAccel st.mech.forces gravs c.g) s s' ∧
      ∀ p, s'.L p = 0 := by
  obtain ⟨grids, f, x3, x4, S⟩ := usl_stages gravs hdim hforces h hr
  have hf := S.stressfree fun c hc hs s hb q => (ht.bodies c hc hs s hb).stress q
  have hforce : ∀ g j a, (grids g).force j a = (grids g).mass j * gridAccel st.mech.forces gravs g a := by
    intro g j a
    rw [S.force, hf, zero_add]
  have hmom : ∀ g j a, (grids g).moment j a = (grids g).mass j * u g a := by
    intro g j a
    rw [S.moment, S.mass, gridSum_mul]
    refine gridSum_congr _ _ _ _ fun c hc hs hg => ?_
    obtain ⟨s, e1, -, -, -⟩ := S.body c hc hs
    rw [e1]
    have hvel := (ht.bodies c hc hs s e1).velocity
    simp only [Body.nodeMoment, Body.nodeMass, hvel, hg]
    exact scatter_uniform _ _ _ _
  have hnonneg : ∀ j, ∀ c ∈ sv.couplings, c.skip = false →
      0 ≤ (st.world.bodies c.p).nodeMass c.ker (sv.domains c.g) j := by
    intro j c hc hs
    obtain ⟨s, e1, hgc, hm, -⟩ := S.body c hc hs
    rw [e1]
    exact nodeMass_nonneg hgc s.mass (fun q => (hm q).le) j
  have hbody : ∀ c ∈ sv.couplings, c.skip = false → ∃ s s', st.world.bodies c.p = .deformable s ∧
      x3.world.bodies c.p = .deformable s' ∧
      Fallen (st.dt • (u c.g + st.dt • gridAccel st.mech.forces gravs c.g)) (st.dt • gridAccel st.mech.forces gravs c.g) s s' ∧
      ∀ p, s'.L p = 0 := by
    intro c hc hs
    obtain ⟨s, e1, hgc, hm, e2⟩ := S.body c hc hs
    have htr := ht.bodies c hc hs s e1
    have htr' : Translating (u c.g) (resetBody s) := ⟨htr.velocity, htr.stress, htr.plane, htr.volume⟩
    obtain ⟨m1, m2⟩ := g2p_fall hgc sv.alpha st.dt (grids c.g) (resetBody s) (u c.g) (st.dt • gridAccel st.mech.forces gravs c.g) htr' (by
      intro i a h0
      set j := (compute c.ker (sv.domains c.g) s.position).nodeHash i with hj
      have hpos : 0 < (grids c.g).mass j := by
        refine lt_of_le_of_ne (S.mass_nonneg _ _) fun e => h0 ?_
        have hz := gridSum_term_zero sv.couplings c.g _ (hnonneg j) ((S.mass c.g j).symm.trans e.symm) c hc hs rfl
        rw [e1] at hz
        exact val_zero_of_nodeMass hgc s.mass hm j hz i rfl
      have hcut : uslCutoff < (grids c.g).mass j := by
        have := hr.cutoff c.g j
        rw [← S.mass] at this
        exact this hpos
      have hnt : (grids c.g).momentNt j a = (grids c.g).mass j * (u c.g a + st.dt * gridAccel st.mech.forces gravs c.g a) := by
        rw [S.momentNt c hc hs]
        simp only [hforce, hmom]
        ring
      rw [hnt, hmom]
      unfold nodeVel
      rw [if_pos hcut, if_pos hcut, if_pos hcut, mul_div_cancel_left₀ _ hpos.ne', mul_div_cancel_left₀ _ hpos.ne']
      exact ⟨rfl, rfl⟩)
    exact ⟨s, _, e1, e2, ⟨m1.position, m1.velocity, m1.F, m1.volume, m1.volume0, m1.mass, m1.stress⟩, m2⟩
  obtain ⟨l1, l2⟩ := law_fold_rest hL hrest hreset st.dt sv.couplings x3 x4 S.law
    (by rw [S.mech]; exact ht.laws) (by
      intro c hc hs t hb q
      obtain ⟨s, s', e1, e2, m, hz⟩ := hbody c hc hs
      rw [hb] at e2
      cases e2
      exact ⟨hz q, by rw [m.stress]; exact (ht.bodies c hc hs s e1).stress q⟩)
  have hfin : ∀ c ∈ sv.couplings, c.skip = false → ∃ s s', st.world.bodies c.p = .deformable s ∧
      st'.world.bodies c.p = .deformable s' ∧
      Fallen (st.dt • (u c.g + st.dt • gridAccel st.mech.forces gravs c.g)) (st.dt • gridAccel st.mech.forces gravs c.g) s s' ∧
      ∀ p, s'.L p = 0 := by
    intro c hc hs
    obtain ⟨s, s', e1, e2, m, hz⟩ := hbody c hc hs
    exact ⟨s, s', e1, by rw [S.world']; exact l2 _ _ e2, m, hz⟩
  refine ⟨⟨?_, by rw [S.mech']; exact l1⟩, hfin⟩
  intro c hc hs t hb
  obtain ⟨s, s', e1, e2, m, -⟩ := hfin c hc hs
  rw [hb] at e2
  cases e2
  have htr := ht.bodies c hc hs s e1
  exact ⟨fun p => by rw [m.velocity, htr.velocity p]; rfl, fun p => by rw [m.stress]; exact htr.stress p,
    fun h2 p => by rw [m.F]; exact htr.plane h2 p, fun p => by rw [m.volume, m.F, m.volume0]; exact htr.volume p⟩

/-- **C121.** After `n` steps of length `dt` the body has the velocity `v + n dt g` and has moved by `n dt v + dt² g n (n + 1) / 2`; its shape,
volume, mass and (zero) stress are those of the start. -/
theorem free_fall {Q : Fin z.C → LS → Prop} (gravs : List (List (Fin z.G) × ℕ)) (u : Fin z.G → Fin dim → K) (hdim : dim = 2 ∨ dim = 3)
    (hforces : sv.forces = gravityList gravs) (hL : ∀ c, (sv.laws c).OnlyStress)
    (hrest : ∀ c, StaysAtRest (Q c) (sv.laws c)) (hreset : ∀ c, (sv.laws c).requiresFReset = false) (n : ℕ)
    {st st' : SimState z K dim SS LS (ForceState K dim)} (h : runSteps (uslCall fn sv) (n + 1) st = .ok st')
    (hr : AlongRun fn sv (n + 1) st (Regular uslCutoff sv)) (ht : SceneTranslating sv Q u st) :
    SceneTranslating sv Q (fun g a => u g a + (n + 1 : ℕ) * st.dt * gridAccel st.mech.forces gravs g a) st' ∧
    ∀ c ∈ sv.couplings, c.skip = false → ∃ s s', st.world.bodies c.p = .deformable s ∧ st'.world.bodies c.p = .deformable s' ∧
      Fallen (fun a => (n + 1 : ℕ) * st.dt * u c.g a + st.dt ^ 2 * gridAccel st.mech.forces gravs c.g a * ((n + 1 : ℕ) * (n + 2 : ℕ) / 2))
        (((n + 1 : ℕ) * st.dt) • gridAccel st.mech.forces gravs c.g) s s' ∧ ∀ p, s'.L p = 0 := by
  induction n generalizing st' with
  | zero =>
    obtain ⟨s1, h1, h2⟩ := runSteps_succ_ok.mp h
    have : st = s1 := by simpa [runSteps] using h1
    subst this
    obtain ⟨t, b⟩ := fall_step gravs u hdim hforces hL hrest hreset h2 (hr 0 (by omega) _ h1) ht
    refine ⟨by simpa using t, fun c hc hs => ?_⟩
    obtain ⟨s, s', e1, e2, m, hz⟩ := b c hc hs
    refine ⟨s, s', e1, e2, ⟨fun p => ?_, fun p => ?_, m.F, m.volume, m.volume0, m.mass, m.stress⟩, hz⟩
    · rw [m.position]
      funext a
      simp only [Pi.add_apply, Pi.smul_apply, smul_eq_mul]
      push_cast
      ring
    · rw [m.velocity]
      simp
  | succ n ih =>
    obtain ⟨s1, h1, h2⟩ := runSteps_succ_ok.mp h
    obtain ⟨t1, b1⟩ := ih h1 (fun i hi => hr i (by omega))
    obtain ⟨d1, d2, -⟩ := usl_run_momentum gravs hdim hforces hL (n + 1) h1 (fun i hi => hr i (by omega))
    obtain ⟨t2, b2⟩ := fall_step gravs _ hdim hforces hL hrest hreset h2 (hr (n + 1) (by omega) _ h1) t1
    rw [d1, d2] at t2
    simp only [d1, d2] at b2
    refine ⟨?_, fun c hc hs => ?_⟩
    · have e : (fun g a => u g a + (n + 1 : ℕ) * st.dt * gridAccel st.mech.forces gravs g a + st.dt * gridAccel st.mech.forces gravs g a) =
          fun g a => u g a + (n + 1 + 1 : ℕ) * st.dt * gridAccel st.mech.forces gravs g a := by
        funext g a; push_cast; ring
      rw [← e]
      exact t2
    · obtain ⟨s, s', e1, e2, m, -⟩ := b1 c hc hs
      obtain ⟨t, t', f1, f2, m', hz⟩ := b2 c hc hs
      rw [e2] at f1
      cases f1
      refine ⟨s, t', e1, f2, ⟨fun p => ?_, fun p => ?_, m'.F.trans m.F, m'.volume.trans m.volume,
        m'.volume0.trans m.volume0, m'.mass.trans m.mass, m'.stress.trans m.stress⟩, hz⟩
      · rw [m'.position, m.position]
        funext a
        simp only [Pi.add_apply, Pi.smul_apply, smul_eq_mul]
        push_cast
        ring
      · rw [m'.velocity, m.velocity, add_assoc, ← add_smul]
        congr 2
        push_cast
        ring

/-- **C121.** With one gravity `v` acting once on every grid in use, at the time `t = n dt`: velocity `u + t v`, displacement
`t u + t² v / 2 + t dt v / 2`. The parabola of the exact motion is overshot by `t dt v / 2`, whatever the grid, kernel, blend and law. -/
theorem free_fall_parabola {Q : Fin z.C → LS → Prop} (gs : List (Fin z.G)) (i : ℕ) (v : Fin dim → K) (u : Fin z.G → Fin dim → K)
    (hdim : dim = 2 ∨ dim = 3) (hforces : sv.forces = [gravityForce true [] gs i]) (hL : ∀ c, (sv.laws c).OnlyStress)
    (hrest : ∀ c, StaysAtRest (Q c) (sv.laws c)) (hreset : ∀ c, (sv.laws c).requiresFReset = false) (n : ℕ)
    {st st' : SimState z K dim SS LS (ForceState K dim)} (hv : st.mech.forces[i]? = some (.gravity v))
    (hgs : ∀ c ∈ sv.couplings, c.skip = false → gs.count c.g = 1) (h : runSteps (uslCall fn sv) (n + 1) st = .ok st')
    (hr : AlongRun fn sv (n + 1) st (Regular uslCutoff sv)) (ht : SceneTranslating sv Q u st) :
    ∀ c ∈ sv.couplings, c.skip = false → ∃ s s', st.world.bodies c.p = .deformable s ∧ st'.world.bodies c.p = .deformable s' ∧
      let t : K := (n + 1 : ℕ) * st.dt
      (∀ p a, s'.velocity p a = u c.g a + t * v a ∧
        s'.position p a = s.position p a + (t * u c.g a + t ^ 2 * v a / 2) + t * st.dt * v a / 2) ∧
      s'.F = s.F ∧ s'.volume = s.volume ∧ ∀ p, s'.stress p = 0 := by
  intro c hc hs
  obtain ⟨s, s', e1, e2, m, -⟩ := (free_fall [(gs, i)] u hdim hforces hL hrest hreset n h hr ht).2 c hc hs
  have hg : ∀ a, gridAccel st.mech.forces [(gs, i)] c.g a = v a := fun a => by simp [gridAccel, hgs c hc hs, hv]
  refine ⟨s, s', e1, e2, fun p a => ⟨?_, ?_⟩, m.F, m.volume, fun p => by rw [m.stress]; exact (ht.bodies c hc hs s e1).stress p⟩
  · rw [m.velocity, (ht.bodies c hc hs s e1).velocity]
    simp only [Pi.add_apply, Pi.smul_apply, smul_eq_mul, hg]
  · rw [m.position]
    simp only [Pi.add_apply, hg]
    push_cast
    ring

/-! ### ASFLIP -/

/-- The same gather with ASFLIP: the affine matrix is zero and the velocity is the one of the grid, cut by the speed limit. -/
theorem aflip_g2p_fall {n w N : ℕ} {c : InteractionCache K n w} (hc : GoodCache c N) (sqrt : K → K) (pr : AflipParams K) (cell dt : K)
    (gr : GridArrays K dim) (s : MPState K dim n) (u dv : Fin dim → K) (hs : Translating u s)
    (hv : ∀ i a, c.shapeVal i ≠ 0 → nodeVel pr.cutoff (gr.mass (c.nodeHash i)) (gr.moment (c.nodeHash i) a) = u a ∧
      nodeVel pr.cutoff (gr.mass (c.nodeHash i)) (gr.momentNt (c.nodeHash i) a) = u a + dv a) :
    (∀ p a, (aflipG2pMls sqrt pr cell dt c gr s).1.position p a = s.position p a + dt * (u a + dv a)) ∧
    (∀ p a, (aflipG2pMls sqrt pr cell dt c gr s).1.velocity p a = (u a + dv a) * clampFactor sqrt pr.cfl cell dt (u + dv)) ∧
    (aflipG2pMls sqrt pr cell dt c gr s).1.F = s.F ∧ (aflipG2pMls sqrt pr cell dt c gr s).1.volume = s.volume ∧
    (∀ p, (aflipG2pMls sqrt pr cell dt c gr s).1.L p = 0) ∧ ∀ p, (aflipG2pMls sqrt pr cell dt c gr s).2 p = 0 := by
  have hw : ∀ i a, c.shapeVal i * nodeVel pr.cutoff (gr.mass (c.nodeHash i)) (gr.momentNt (c.nodeHash i) a) =
      (u a + dv a) * c.shapeVal i := by
    intro i a
    by_cases h0 : c.shapeVal i = 0
    · rw [h0]; simp
    · rw [(hv i a h0).2]; ring
  have hw0 : ∀ i a, c.shapeVal i * nodeVel pr.cutoff (gr.mass (c.nodeHash i)) (gr.moment (c.nodeHash i) a) = u a * c.shapeVal i := by
    intro i a
    by_cases h0 : c.shapeVal i = 0
    · rw [h0]; simp
    · rw [(hv i a h0).1]; ring
  have hg : ∀ i j k, -(pad3 (fun a => nodeVel pr.cutoff (gr.mass (c.nodeHash i)) (gr.momentNt (c.nodeHash i) a)) j * c.shapeGrad i k) =
      -(pad3 (u + dv) j) * c.shapeGrad i k := by
    intro i j k
    by_cases h0 : c.shapeVal i = 0
    · rw [hc.grad_zero i h0 k]; simp
    · rw [show (fun a => nodeVel pr.cutoff (gr.mass (c.nodeHash i)) (gr.momentNt (c.nodeHash i) a)) = u + dv from
        funext fun a => (hv i a h0).2]
      ring
  have hN : (aflipGather pr.cutoff c gr).pVelNt = fun _ a => u a + dv a := by
    funext p a
    simp only [aflipGather, hw, pointSum_mul, hc.sum_val, mul_one]
  have h0 : (aflipGather pr.cutoff c gr).pVel = fun _ a => u a := by
    funext p a
    simp only [aflipGather, hw0, pointSum_mul, hc.sum_val, mul_one]
  have hB : ∀ p, (aflipGather pr.cutoff c gr).pBp p = 0 := by
    intro p
    funext j k
    simp only [aflipGather, hg, pointSum_mul, hc.sum_grad, mul_zero]
    rfl
  have hL : ∀ p, (aflipG2pMls sqrt pr cell dt c gr s).1.L p = 0 := by
    intro p
    show (if dim = 2 then set22 ((aflipGather pr.cutoff c gr).pBp p) 0 else (aflipGather pr.cutoff c gr).pBp p) = 0
    rw [hB]
    have hz : set22 (0 : Mat3 K) 0 = 0 := set22_self rfl
    exact (congrArg (fun M => if dim = 2 then M else 0) hz).trans (ite_self _)
  have hF : (aflipG2pMls sqrt pr cell dt c gr s).1.F = s.F := by
    funext p
    have : (aflipG2pMls sqrt pr cell dt c gr s).1.F p = if dim = 2 then
        set22 ((1 - dt • (aflipG2pMls sqrt pr cell dt c gr s).1.L p) * s.F p) 1
      else (1 - dt • (aflipG2pMls sqrt pr cell dt c gr s).1.L p) * s.F p := rfl
    rw [this, hL p, smul_zero, sub_zero, one_mul]
    split_ifs with h2
    · exact set22_self (hs.plane h2 p)
    · rfl
  refine ⟨fun p a => ?_, fun p a => ?_, hF, ?_, hL, hB⟩
  · simp only [aflipG2pMls, hN, h0, hs.velocity, sub_self, mul_zero, add_zero]
  · simp only [aflipG2pMls, hN, h0, hs.velocity, sub_self, mul_zero, add_zero]
    rfl
  · funext p
    have : (aflipG2pMls sqrt pr cell dt c gr s).1.volume p = ((aflipG2pMls sqrt pr cell dt c gr s).1.F p).det * s.volume0 p := rfl
    rw [this, hF, hs.volume p]

/-- **C121, one step of ASFLIP.** The same with the velocity cut by the speed limit; the displacement is that of the velocity before the
cut. The affine matrices start and stay zero. -/
theorem aflip_fall_step {Q : Fin z.C → LS → Prop} (pr : AflipParams K) (gravs : List (List (Fin z.G) × ℕ)) (u : Fin z.G → Fin dim → K)
    (hdim : dim = 2 ∨ dim = 3) (hforces : sv.forces = gravityList gravs) (hL : ∀ c, (sv.laws c).OnlyStress)
    (hrest : ∀ c, StaysAtRest (Q c) (sv.laws c)) (hreset : ∀ c, (sv.laws c).requiresFReset = false)
    {st st' : SimState z K dim SS LS (ForceState K dim)} (hB : ∀ i q, st.mech.solvers i q = 0)
    (h : aflipCall fn pr sv st = .ok st') (hr : Regular pr.cutoff sv st.world) (ht : SceneTranslating sv Q u st) :
    SceneTranslating sv Q (fun g a => (u g a + st.dt * gridAccel st.mech.forces gravs g a) *
      clampFactor fn.sqrt pr.cfl (sv.domains g).cellSize st.dt (u g + st.dt • gridAccel st.mech.forces gravs g)) st' ∧
    (∀ i q, st'.mech.solvers i q = 0) ∧ st'.mech.forces = st.mech.forces ∧ st'.dt = st.dt ∧
    ∀ c ∈ sv.couplings, c.skip = false → ∃ s s', st.world.bodies c.p = .deformable s ∧ st'.world.bodies c.p = .deformable s' ∧
      Fallen (st.dt • (u c.g + st.dt • gridAccel st.mech.forces gravs c.g))
        (fun a => (u c.g a + st.dt * gridAccel st.mech.forces gravs c.g a) *
          clampFactor fn.sqrt pr.cfl (sv.domains c.g).cellSize st.dt (u c.g + st.dt • gridAccel st.mech.forces gravs c.g) - u c.g a) s s' ∧
      ∀ p, s'.L p = 0 := by
  obtain ⟨grids, k, f, x3, x4, S⟩ := aflip_stages pr gravs hdim hforces h hr
  have hf := S.stressfree fun c hc hs s hb q => (ht.bodies c hc hs s hb).stress q
  have hforce : ∀ g j a, (grids g).force j a = (grids g).mass j * gridAccel st.mech.forces gravs g a := by
    intro g j a
    rw [S.force, hf, zero_add]
  have hmass : ∀ g j, (grids g).mass j = gridSum sv.couplings g (fun c => (st.world.bodies c.p).nodeMass c.ker (sv.domains c.g) j) := by
    intro g j
    rw [S.mass]
    refine gridSum_congr _ _ _ _ fun c hc hs _ => ?_
    obtain ⟨s, e1, -, -, hg, -⟩ := S.body c hc hs
    rw [hg.mass]
  have hmom : ∀ g j a, (grids g).moment j a = (grids g).mass j * u g a := by
    intro g j a
    rw [S.moment, hmass, gridSum_mul]
    refine gridSum_congr _ _ _ _ fun c hc hs hg => ?_
    obtain ⟨s, e1, hgc, -, -, -⟩ := S.body c hc hs
    have hvel := (ht.bodies c hc hs s e1).velocity
    rw [S.contribution c hc hs s e1, aflip_p2g_moment hgc, e1]
    have hz : ∀ (q : ℕ) (d : Fin 3 → K), trunc3 dim (fun r => ∑ k, st.mech.solvers c.s q r k * d k) a = 0 := by
      intro q d
      simp only [hB, Matrix.zero_apply, zero_mul, Finset.sum_const_zero]
      simp [trunc3]
    have hvr : (resetBody s).velocity = s.velocity := rfl
    have hmr : (resetBody s).mass = s.mass := rfl
    have hn : (GridArrays.new : GridArrays K dim).moment j a = 0 := rfl
    rw [hn, zero_add, Body.nodeMass, ← hg]
    refine Eq.trans ?_ (scatter_uniform (compute c.ker (sv.domains c.g) s.position) s.mass (u c.g a) j)
    congr 1
    funext i
    rw [hvr, hmr, hvel, hz, sub_zero]
  have hnonneg : ∀ j, ∀ c ∈ sv.couplings, c.skip = false →
      0 ≤ (st.world.bodies c.p).nodeMass c.ker (sv.domains c.g) j := by
    intro j c hc hs
    obtain ⟨s, e1, hgc, hm, -⟩ := S.body c hc hs
    rw [e1]
    exact nodeMass_nonneg hgc s.mass (fun q => (hm q).le) j
  have hgather : ∀ c ∈ sv.couplings, c.skip = false → ∀ s, st.world.bodies c.p = .deformable s → ∀ i a,
      (compute c.ker (sv.domains c.g) s.position).shapeVal i ≠ 0 →
      nodeVel pr.cutoff ((grids c.g).mass ((compute c.ker (sv.domains c.g) s.position).nodeHash i))
        ((grids c.g).moment ((compute c.ker (sv.domains c.g) s.position).nodeHash i) a) = u c.g a ∧
      nodeVel pr.cutoff ((grids c.g).mass ((compute c.ker (sv.domains c.g) s.position).nodeHash i))
        ((grids c.g).momentNt ((compute c.ker (sv.domains c.g) s.position).nodeHash i) a) =
          u c.g a + (st.dt • gridAccel st.mech.forces gravs c.g) a := by
    intro c hc hs s e1 i a h0
    obtain ⟨s2, e1', hgc, hm, -⟩ := S.body c hc hs
    rw [e1] at e1'
    cases e1'
    set j := (compute c.ker (sv.domains c.g) s.position).nodeHash i with hj
    have hpos : 0 < (grids c.g).mass j := by
      refine lt_of_le_of_ne (S.mass_nonneg _ _) fun e => h0 ?_
      have hz := gridSum_term_zero sv.couplings c.g _ (hnonneg j) ((hmass c.g j).symm.trans e.symm) c hc hs rfl
      rw [e1] at hz
      exact val_zero_of_nodeMass hgc s.mass hm j hz i rfl
    have hcut : pr.cutoff < (grids c.g).mass j := by
      have := hr.cutoff c.g j
      rw [← hmass] at this
      exact this hpos
    have hnt : (grids c.g).momentNt j a = (grids c.g).mass j * (u c.g a + st.dt * gridAccel st.mech.forces gravs c.g a) := by
      rw [S.momentNt c hc hs]
      simp only [hforce, hmom]
      ring
    rw [hnt, hmom]
    unfold nodeVel
    rw [if_pos hcut, if_pos hcut, if_pos hcut, mul_div_cancel_left₀ _ hpos.ne', mul_div_cancel_left₀ _ hpos.ne']
    exact ⟨rfl, rfl⟩
  have hgood : ∀ c ∈ sv.couplings, c.skip = false → ∀ s, st.world.bodies c.p = .deformable s →
      GoodCache (compute c.ker (sv.domains c.g) s.position) (sv.domains c.g).numCells := by
    intro c hc hs s e1
    obtain ⟨s2, e1', hgc, hm, -⟩ := S.body c hc hs
    rw [e1] at e1'
    cases e1'
    exact hgc
  have hall := fun (c : Coupling z) (hc : c ∈ sv.couplings) (hs : c.skip = false) (s : MPState K dim (z.np c.p))
    (e1 : st.world.bodies c.p = .deformable s) =>
      let htr := ht.bodies c hc hs s e1
      aflip_g2p_fall (hgood c hc hs s e1) fn.sqrt pr (sv.domains c.g).cellSize st.dt (grids c.g) (resetBody s) (u c.g)
        (st.dt • gridAccel st.mech.forces gravs c.g) ⟨htr.velocity, htr.stress, htr.plane, htr.volume⟩ (hgather c hc hs s e1)
  have hsol := S.solvers hB fun c hc hs s e1 q => (hall c hc hs s e1).2.2.2.2.2 q
  obtain ⟨l1, l2⟩ := law_fold_rest hL hrest hreset st.dt sv.couplings x3 x4 S.law
    (by rw [S.laws]; exact ht.laws) (by
      intro c hc hs t hb q
      obtain ⟨s, e1, -, -, -, e2⟩ := S.body c hc hs
      rw [hb] at e2
      cases e2
      exact ⟨(hall c hc hs s e1).2.2.2.2.1 q, (ht.bodies c hc hs s e1).stress q⟩)
  have hsol4 : x4.mech.solvers = x3.mech.solvers := by
    refine foldE_rel (R := fun (x x' : Ctx z K dim SS LS (ForceState K dim)) => x'.mech.solvers = x.mech.solvers)
      (fun _ => rfl) (fun _ _ _ h1 h2 => h2.trans h1) sv.couplings x3 x4 (fun c _ y y' hy => ?_) S.law
    cases hs : c.skip with
    | true => rw [lawCoupling_skip hs hy]
    | false =>
      obtain ⟨s, r, -, -, rfl⟩ := lawCoupling_ok hs hy
      rfl
  have hfin : ∀ c ∈ sv.couplings, c.skip = false → ∃ s, st.world.bodies c.p = .deformable s ∧ st'.world.bodies c.p = .deformable
      (aflipG2pMls fn.sqrt pr (sv.domains c.g).cellSize st.dt (compute c.ker (sv.domains c.g) s.position) (grids c.g) (resetBody s)).1 := by
    intro c hc hs
    obtain ⟨s, e1, -, -, -, e2⟩ := S.body c hc hs
    exact ⟨s, e1, by rw [S.world']; exact l2 _ _ e2⟩
  refine ⟨⟨?_, by rw [S.mech']; exact l1⟩, fun i q => by rw [S.mech', hsol4]; exact hsol i q, by
    rw [S.mech', (law_fold hL st.dt sv.couplings x3 x4 S.law).1, S.mech], S.dt', fun c hc hs => ?_⟩
  · intro c hc hs t hb
    obtain ⟨s, e1, e2⟩ := hfin c hc hs
    rw [hb] at e2
    cases e2
    have htr := ht.bodies c hc hs s e1
    obtain ⟨a1, a2, a3, a4, a5, -⟩ := hall c hc hs s e1
    refine ⟨fun p => funext fun a => ?_, htr.stress, fun h2 p => by rw [a3]; exact htr.plane h2 p, fun p => by rw [a4, a3]; exact htr.volume p⟩
    rw [a2]
    rfl
  · obtain ⟨s, e1, e2⟩ := hfin c hc hs
    obtain ⟨a1, a2, a3, a4, a5, -⟩ := hall c hc hs s e1
    refine ⟨s, _, e1, e2, ⟨fun p => funext fun a => a1 p a, fun p => funext fun a => ?_, a3, a4, rfl, rfl, rfl⟩, a5⟩
    rw [a2]
    show _ = s.velocity p a + _
    rw [(ht.bodies c hc hs s e1).velocity]
    exact (add_sub_cancel _ _).symm

/-- Below the limit nothing is cut. -/
theorem clamp_one_of_slow {sqrt : K → K} (hsqrt : LowerRoot sqrt) {cfl cell dt : K} (v : Fin dim → K)
    (hmax : 1 / 10 ^ 12 ≤ cfl * cell / dt) (hv : speedSq v ≤ (cfl * cell / dt - 1 / 10 ^ 12) ^ 2) :
    clampFactor sqrt cfl cell dt v = 1 := by
  refine clamp_one_of_speed hsqrt v hmax (le_trans ?_ hv)
  rw [speedSq_mul]
  have h0 : 0 ≤ clampFactor sqrt cfl cell dt v := le_min zero_le_one (div_nonneg (le_trans (by positivity) hmax)
    (add_nonneg (hsqrt _ (speedSq_nonneg v)).1 (by positivity)))
  have h1 : clampFactor sqrt cfl cell dt v ≤ 1 := min_le_left _ _
  calc speedSq v * clampFactor sqrt cfl cell dt v ^ 2 ≤ speedSq v * 1 :=
        mul_le_mul_of_nonneg_left (pow_le_one₀ h0 h1) (speedSq_nonneg v)
    _ = speedSq v := mul_one _

theorem Spec.SceneTranslating.congr {Q : Fin z.C → LS → Prop} {u u' : Fin z.G → Fin dim → K}
    {st : SimState z K dim SS LS (ForceState K dim)} (h : SceneTranslating sv Q u st)
    (hu : ∀ c ∈ sv.couplings, c.skip = false → u c.g = u' c.g) : SceneTranslating sv Q u' st :=
  ⟨fun c hc hs s hb => hu c hc hs ▸ h.bodies c hc hs s hb, h.laws⟩

/-- **C121, ASFLIP.** The same law of fall as long as the falling body stays below the speed limit of its grid (`cfl_limit · cell / dt`, less
1e-12) during all steps, for the constant and the dynamic blend; it needs affine matrices that are zero at the start. Missing: a body that
reaches the limit (`aflip_fall_fails`). -/
theorem aflip_free_fall_partial {Q : Fin z.C → LS → Prop} (hsqrt : LowerRoot fn.sqrt) (pr : AflipParams K)
    (gravs : List (List (Fin z.G) × ℕ)) (u : Fin z.G → Fin dim → K) (hdim : dim = 2 ∨ dim = 3)
    (hforces : sv.forces = gravityList gravs) (hL : ∀ c, (sv.laws c).OnlyStress)
    (hrest : ∀ c, StaysAtRest (Q c) (sv.laws c)) (hreset : ∀ c, (sv.laws c).requiresFReset = false) (n : ℕ)
    {st st' : SimState z K dim SS LS (ForceState K dim)} (hB : ∀ i q, st.mech.solvers i q = 0)
    (hslow : ∀ c ∈ sv.couplings, c.skip = false → 1 / 10 ^ 12 ≤ pr.cfl * (sv.domains c.g).cellSize / st.dt ∧ ∀ i : ℕ, i ≤ n →
      speedSq (fun a => u c.g a + (i + 1 : ℕ) * st.dt * gridAccel st.mech.forces gravs c.g a) ≤
        (pr.cfl * (sv.domains c.g).cellSize / st.dt - 1 / 10 ^ 12) ^ 2)
    (h : runSteps (aflipCall fn pr sv) (n + 1) st = .ok st')
    (hr : ∀ i < n + 1, ∀ si, runSteps (aflipCall fn pr sv) i st = .ok si → Regular pr.cutoff sv si.world)
    (ht : SceneTranslating sv Q u st) :
    SceneTranslating sv Q (fun g a => u g a + (n + 1 : ℕ) * st.dt * gridAccel st.mech.forces gravs g a) st' ∧
    (∀ i q, st'.mech.solvers i q = 0) ∧ st'.mech.forces = st.mech.forces ∧ st'.dt = st.dt ∧
    ∀ c ∈ sv.couplings, c.skip = false → ∃ s s', st.world.bodies c.p = .deformable s ∧ st'.world.bodies c.p = .deformable s' ∧
      Fallen (fun a => (n + 1 : ℕ) * st.dt * u c.g a + st.dt ^ 2 * gridAccel st.mech.forces gravs c.g a * ((n + 1 : ℕ) * (n + 2 : ℕ) / 2))
        (((n + 1 : ℕ) * st.dt) • gridAccel st.mech.forces gravs c.g) s s' ∧ ∀ p, s'.L p = 0 := by
  induction n generalizing st' with
  | zero =>
    obtain ⟨s1, h1, h2⟩ := runSteps_succ_ok.mp h
    have : st = s1 := by simpa [runSteps] using h1
    subst this
    obtain ⟨t, b1, b2, b3, b⟩ := aflip_fall_step pr gravs u hdim hforces hL hrest hreset hB h2 (hr 0 (by omega) _ h1) ht
    have hcl : ∀ c ∈ sv.couplings, c.skip = false → clampFactor fn.sqrt pr.cfl (sv.domains c.g).cellSize st.dt
        (u c.g + st.dt • gridAccel st.mech.forces gravs c.g) = 1 := by
      intro c hc hs
      refine clamp_one_of_slow hsqrt _ (hslow c hc hs).1 (le_trans (le_of_eq ?_) ((hslow c hc hs).2 0 le_rfl))
      congr 1
      funext a
      simp
    refine ⟨t.congr fun c hc hs => ?_, b1, b2, b3, fun c hc hs => ?_⟩
    · funext a
      simp only [hcl c hc hs]
      push_cast
      ring
    obtain ⟨s, s', e1, e2, m, hz⟩ := b c hc hs
    rw [hcl c hc hs] at m
    refine ⟨s, s', e1, e2, ⟨fun p => ?_, fun p => ?_, m.F, m.volume, m.volume0, m.mass, m.stress⟩, hz⟩
    · rw [m.position]
      funext a
      simp only [Pi.add_apply, Pi.smul_apply, smul_eq_mul]
      push_cast
      ring
    · rw [m.velocity]
      funext a
      simp only [Pi.add_apply, Pi.smul_apply, smul_eq_mul]
      push_cast
      ring
  | succ n ih =>
    obtain ⟨s1, h1, h2⟩ := runSteps_succ_ok.mp h
    obtain ⟨t1, c1, d1, d2, b1⟩ := ih (fun c hc hs => ⟨(hslow c hc hs).1, fun i hi => (hslow c hc hs).2 i (by omega)⟩) h1
      (fun i hi => hr i (by omega))
    obtain ⟨t2, c2, f1, f2, b2⟩ := aflip_fall_step pr gravs _ hdim hforces hL hrest hreset c1 h2 (hr (n + 1) (by omega) _ h1) t1
    have hcl : ∀ c ∈ sv.couplings, c.skip = false → clampFactor fn.sqrt pr.cfl (sv.domains c.g).cellSize st.dt
        ((fun a => u c.g a + (n + 1 : ℕ) * st.dt * gridAccel st.mech.forces gravs c.g a) + st.dt • gridAccel st.mech.forces gravs c.g) = 1 := by
      intro c hc hs
      refine clamp_one_of_slow hsqrt _ (hslow c hc hs).1 (le_trans (le_of_eq ?_) ((hslow c hc hs).2 (n + 1) le_rfl))
      congr 1
      funext a
      simp only [Pi.add_apply, Pi.smul_apply, smul_eq_mul]
      push_cast
      ring
    rw [d1, d2] at t2
    simp only [d1, d2] at b2
    refine ⟨t2.congr fun c hc hs => ?_, c2, f1.trans d1, f2.trans d2, fun c hc hs => ?_⟩
    · funext a
      simp only [hcl c hc hs]
      push_cast
      ring
    · obtain ⟨s, s', e1, e2, m, -⟩ := b1 c hc hs
      obtain ⟨t, t', g1, g2, m', hz⟩ := b2 c hc hs
      rw [e2] at g1
      cases g1
      rw [hcl c hc hs] at m'
      refine ⟨s, t', e1, g2, ⟨fun p => ?_, fun p => ?_, m'.F.trans m.F, m'.volume.trans m.volume,
        m'.volume0.trans m.volume0, m'.mass.trans m.mass, m'.stress.trans m.stress⟩, hz⟩
      · rw [m'.position, m.position]
        funext a
        simp only [Pi.add_apply, Pi.smul_apply, smul_eq_mul]
        push_cast
        ring
      · rw [m'.velocity, m.velocity]
        funext a
        simp only [Pi.add_apply, Pi.smul_apply, smul_eq_mul]
        push_cast
        ring

end

/-! ### On scenes -/

/-- The example scene with gravity -10 and a stress-free body moving with (1, -2). -/
theorem exMoving_translating (reset : Bool) :
    SceneTranslating (exSolver .linear reset) (fun _ _ => True) (fun _ => ![1, -2]) exMovingState := by
  refine ⟨fun c hc _ s hb => ?_, fun _ => trivial⟩
  obtain rfl : c = exCoupling .linear := by simpa [exSolver] using hc
  have hb := Body.deformable.inj hb
  subst hb
  refine ⟨fun _ => rfl, fun _ => rfl, fun _ p => ?_, fun p => ?_⟩
  · simp [exBody, MPState.create]
  · simp [exBody, MPState.create]

set_option maxRecDepth 100000 in
theorem exFalling_facts : (runSteps (uslCall ratFns (exSolver .linear false)) 2 exMovingState).isOk = true ∧
    exRegularB uslCutoff exMovingState.world = true ∧
    checkOk (runSteps (uslCall ratFns (exSolver .linear false)) 1 exMovingState) (fun s => exRegularB uslCutoff s.world) = true := by
  decide +kernel

/-- `free_fall_parabola` on two steps of 0.01: velocity -2 - 0.2, height 9/10 - 0.04 - 0.002 - 0.001. -/
example : ∃ st' s', runSteps (uslCall ratFns (exSolver .linear false)) 2 exMovingState = .ok st' ∧
    st'.world.bodies (0 : Fin 1) = .deformable s' ∧ s'.velocity 0 1 = -2 - 2 / 10 ∧
    s'.position 0 1 = 9 / 10 - 4 / 100 - 2 / 1000 - 1 / 1000 := by
  obtain ⟨h1, h2, h3⟩ := exFalling_facts
  obtain ⟨st', h⟩ := isOk_ok h1
  have hr : AlongRun ratFns (exSolver .linear false) 2 exMovingState (Regular uslCutoff (exSolver .linear false)) := by
    intro i hi si hs
    obtain rfl | rfl : i = 0 ∨ i = 1 := by omega
    · have : exMovingState = si := by simpa [runSteps] using hs
      exact this ▸ exRegular h2
    · exact exRegular (checkOk_ok h3 si hs)
  obtain ⟨s, s', e1, e2, m, -⟩ := free_fall_parabola (sv := exSolver .linear false) [(0 : Fin 1)] 0 ![0, -10] (fun _ => ![1, -2]) (.inl rfl) rfl
    (fun _ => LibLaw.onlyStress (.elastic 1000 (1 / 4) false)) (fun _ => elastic_staysAtRest 1000 (1 / 4) false)
    (fun _ => rfl) 1 rfl (fun c _ _ => by rw [show c.g = (0 : Fin 1) from Subsingleton.elim _ _]; rfl) h hr
    (exMoving_translating false) (exCoupling .linear) (by simp [exSolver]) rfl
  have e1 := Body.deformable.inj e1
  subst e1
  obtain ⟨mv, mx⟩ := m 0 1
  refine ⟨st', s', h, e2, ?_, ?_⟩
  · rw [mv]
    simp [exMovingState, exState]
    norm_num
  · rw [mx]
    simp [exMovingState, exState, exBody, MPState.create]
    norm_num

/-- The scene of `aflip_fall_fails`: the same body, time step 1/10, already at the limit of 5/2. -/
def exLimitState : SimState exSz ℚ 2 Unit (LawState ℚ) (ForceState ℚ 2) :=
  { exMovingState with
    world := { bodies := fun _ => .deformable { exBody with velocity := fun _ => ![0, -5 / 2], stress := fun _ => 0 },
               sdfs := Fin.elim0 }
    dt := 1 / 10 }

set_option maxRecDepth 100000 in
theorem exLimit_facts : (aflipCall sqFns exAflipParams (exSolver .linear false) exLimitState).isOk = true ∧
    checkOk (aflipCall sqFns exAflipParams (exSolver .linear false) exLimitState) (fun s => match s.world.bodies (0 : Fin 1) with
      | .rigid _ => false
      | .deformable s' => decide (-5 / 2 ≤ s'.velocity 0 1)) = true := by
  decide +kernel

/-- ASFLIP: once the speed limit of half a cell per step (the default) is reached the body stops accelerating although nothing holds it; the
fall gives the velocity -7/2 after this step. -/
theorem aflip_fall_fails : ∃ st' s', aflipCall sqFns exAflipParams (exSolver .linear false) exLimitState = .ok st' ∧
    st'.world.bodies (0 : Fin 1) = .deformable s' ∧ -5 / 2 ≤ s'.velocity 0 1 ∧
    (-5 / 2 : ℚ) + exLimitState.dt * (-10) = -7 / 2 := by
  obtain ⟨h1, h2⟩ := exLimit_facts
  obtain ⟨st', h⟩ := isOk_ok h1
  have := checkOk_ok h2 st' h
  cases hb : st'.world.bodies (0 : Fin 1) with
  | rigid r => simp only [hb] at this; exact absurd this (by simp)
  | deformable s' =>
    simp only [hb, decide_eq_true_eq] at this
    exact ⟨st', s', h, hb, this, by norm_num [exLimitState]⟩

set_option maxRecDepth 100000 in
theorem exAflipFall_facts : (runSteps (aflipCall sqFns exAflipDyn (exSolver .linear false)) 1 exMovingState).isOk = true ∧
    exRegularB exAflipDyn.cutoff exMovingState.world = true := by
  decide +kernel

/-- `aflip_free_fall_partial` on one step with the dynamic blend. -/
example : ∃ st' s', runSteps (aflipCall sqFns exAflipDyn (exSolver .linear false)) 1 exMovingState = .ok st' ∧
    st'.world.bodies (0 : Fin 1) = .deformable s' ∧ s'.velocity 0 1 = -2 - 1 / 10 ∧ s'.position 0 1 = 9 / 10 - 2 / 100 - 1 / 1000 := by
  obtain ⟨h1, h2⟩ := exAflipFall_facts
  obtain ⟨st', h⟩ := isOk_ok h1
  obtain ⟨-, -, -, -, b⟩ := aflip_free_fall_partial (sv := exSolver .linear false) ratSqrt_lowerRoot exAflipDyn [([(0 : Fin 1)], 0)]
    (fun _ => ![1, -2]) (.inl rfl) rfl
    (fun _ => LibLaw.onlyStress (.elastic 1000 (1 / 4) false)) (fun _ => elastic_staysAtRest 1000 (1 / 4) false)
    (fun _ => rfl) 0 (fun _ _ => rfl) (by
      intro c hc hs
      obtain rfl : c = exCoupling .linear := by simpa [exSolver] using hc
      refine ⟨by norm_num [exAflipDyn, exAflipParams, exSolver, exMovingState, exState, GridDomain.create], fun i hi => ?_⟩
      obtain rfl : i = 0 := by omega
      decide +kernel) h
    (fun i hi si hs => by
      obtain rfl : i = 0 := by omega
      have : exMovingState = si := by simpa [runSteps] using hs
      exact this ▸ exRegular h2) (exMoving_translating false)
  obtain ⟨s, s', e1, e2, m, -⟩ := b (exCoupling .linear) (by simp [exSolver]) rfl
  have e1 := Body.deformable.inj e1
  subst e1
  refine ⟨st', s', h, e2, ?_, ?_⟩
  · rw [m.velocity]
    simp [gridAccel, exMovingState, exState, exCoupling]
    norm_num
  · rw [m.position]
    simp [gridAccel, exMovingState, exState, exCoupling, exBody, MPState.create]
    norm_num

end Hydrax
