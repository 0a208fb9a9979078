import Verif.Props.SlabRun

/-!
# A plane flow is a slice of a flow in space (C159)
-/

set_option linter.unusedSectionVars false

namespace Hydrax
open Spec

section
variable {K : Type*} [Field K] [LinearOrder K] [IsStrictOrderedRing K] [FloorRing K] {z y : Sz} {SS SS' : Type*} {fn fn' fl : MathFns K}
  {sv : Solver z K 2 SS (LawState K) (ForceState K 2)} {tv : Solver y K 3 SS' (LawState K) (ForceState K 3)}

/-- The two flows whose stress is a function of velocity gradient, density and reference density. -/
inductive FlowLaw (K : Type*)
  | fluid (pr : FluidParams K)
  | muI (pr : MuIParams K)

/-- The law of a flow, without a reset of the deformation gradient (`fluidLaw`, `muILaw`). -/
def FlowLaw.law {dim : ℕ} (fl : MathFns K) : FlowLaw K → Law K dim (LawState K)
  | .fluid pr => fluidLaw fl pr false
  | .muI pr => muILaw fl pr false

/-- The stress of a flow (`fluidStress`, `muIStress`). -/
def FlowLaw.stress (fl : MathFns K) : FlowLaw K → Mat3 K → K → K → K → Mat3 K
  | .fluid pr => fluidStress fl pr
  | .muI pr => muIStress fl pr

theorem FlowLaw.onlyStress {dim : ℕ} (fl : MathFns K) (k : FlowLaw K) : (k.law fl : Law K dim (LawState K)).OnlyStress := by
  cases k with
  | fluid pr => exact LibLaw.onlyStress (.fluid fl pr false)
  | muI pr => exact LibLaw.onlyStress (.muI fl pr false)

theorem FlowLaw.reset {dim : ℕ} (fl : MathFns K) (k : FlowLaw K) : (k.law fl : Law K dim (LawState K)).requiresFReset = false := by
  cases k <;> rfl

theorem FlowLaw.update_ok {dim n : ℕ} (fl : MathFns K) (k : FlowLaw K) {s : MPState K dim n} {rho : ℕ → K} {dt : K} {r : MPState K dim n × LawState K}
    (h : (k.law fl).update s (.density rho) dt = .ok r) :
    r = ({ s with stress := fun p => k.stress fl (s.L p) (s.mass p) (s.volume p) (rho p.val) }, .density rho) := by
  cases k <;> simp only [FlowLaw.law, fluidLaw, muILaw] at h <;> split_ifs at h <;> exact (Except.ok.inj h).symm

/-- With one coupling and a flow, the stress after the call is the one of the law, and the reference densities stay. -/
theorem fluid_single {w : Sz} {dim : ℕ} {SS : Type*} {fn fl : MathFns K} {sv : Solver w K dim SS (LawState K) (ForceState K dim)}
    {k : FlowLaw K} {dt : K} {c : Coupling w} (hlaw : sv.laws c.c = k.law fl) (hs : c.skip = false)
    {x x' : Ctx w K dim SS (LawState K) (ForceState K dim)} {rho : ℕ → K} (hrho : x.mech.laws c.c = .density rho)
    (h : foldE (lawCoupling fn sv.laws dt) x [c] = .ok x') {t t' : MPState K dim (w.np c.p)} (hb : x.world.bodies c.p = .deformable t)
    (hb' : x'.world.bodies c.p = .deformable t') :
    t' = { t with stress := fun p => k.stress fl (t.L p) (t.mass p) (t.volume p) (rho p.val) } ∧ x'.mech.laws c.c = .density rho := by
  have h : lawCoupling fn sv.laws dt x c = .ok x' := by
    obtain ⟨x1, h1, h2⟩ := andThen_ok.mp h
    have : x1 = x' := Except.ok.inj h2
    rw [← this]; exact h1
  obtain ⟨s, r, e1, e2, rfl⟩ := lawCoupling_ok hs h
  rw [hb] at e1
  cases e1
  rw [hlaw, hrho] at e2
  have e3 := (k.update_ok fl e2).symm
  have : Body.deformable (removeShear fn (sv.laws c.c).requiresFReset r.1) = Body.deformable t' := by
    rw [← hb']
    simp [Ctx.setBody, World.setBody]
  have e4 := Body.deformable.inj this
  rw [hlaw, k.reset] at e4
  constructor
  · rw [← e4, ← e3]
    rfl
  · rw [← e3]
    simp

theorem FlowLaw.shear (fl : MathFns K) (k : FlowLaw K) (L : Mat3 K) (m v r : K) (hL : ∀ j, L 2 j = 0 ∧ L j 2 = 0) :
    k.stress fl L m v r 2 0 = 0 ∧ k.stress fl L m v r 2 1 = 0 := by
  cases k with
  | fluid pr =>
    unfold FlowLaw.stress fluidStress isoT
    simp [Matrix.add_apply, Matrix.smul_apply, Matrix.transpose_apply, hL]
  | muI pr =>
    simp only [FlowLaw.stress, muIStress]
    split_ifs
    · unfold isoT
      simp [Matrix.add_apply, Matrix.smul_apply, Matrix.transpose_apply, hL]
    · exact ⟨rfl, rfl⟩

theorem FlowLaw.thick (fl : MathFns K) (k : FlowLaw K) (L : Mat3 K) {τ : K} (hτ : 0 < τ) (m v r : K) :
    k.stress fl L (τ * m) (τ * v) r = k.stress fl L m v r := by
  cases k with
  | fluid pr => simp only [FlowLaw.stress, fluidStress, mul_div_mul_left _ _ hτ.ne']
  | muI pr => simp only [FlowLaw.stress, muIStress, mul_div_mul_left _ _ hτ.ne']

/-- **C159, one step of a Newtonian fluid or a granular flow.** Points above each other have the same reference density. -/
theorem slab_fluid_step (gravs : List (List (Fin z.G) × ℕ)) (gravs' : List (List (Fin y.G) × ℕ)) (hforces : sv.forces = gravityList gravs)
    (hforces' : tv.forces = gravityList gravs') {k : FlowLaw K} (hL : ∀ i, sv.laws i = k.law fl)
    (hL' : ∀ i, tv.laws i = k.law fl)
    {st st' : SimState z K 2 SS (LawState K) (ForceState K 2)} {ut ut' : SimState y K 3 SS' (LawState K) (ForceState K 3)}
    (h : uslCall fn sv st = .ok st') (h' : uslCall fn' tv ut = .ok ut') (hr : Regular uslCutoff sv st.world) (hr' : Regular uslCutoff tv ut.world)
    (halpha : tv.alpha = sv.alpha) (hdt : ut.dt = st.dt) {c : Coupling z} (hc : sv.couplings = [c]) (hs : c.skip = false)
    {d : Coupling y} (hd : tv.couplings = [d]) (hds : d.skip = false)
    (hker : d.ker = c.ker) (hg : GridOver (sv.domains c.g) (tv.domains d.g))
    (hacc : (∀ a : Fin 2, gridAccel ut.mech.forces gravs' d.g a.castSucc = gridAccel st.mech.forces gravs c.g a) ∧
      gridAccel ut.mech.forces gravs' d.g 2 = 0)
    {s2 : MPState K 2 (z.np c.p)} {s3 : MPState K 3 (y.np d.p)} (hb : st.world.bodies c.p = .deformable s2)
    (hb' : ut.world.bodies d.p = .deformable s3) {lo hi τ : K} (h0 : 0 ≤ lo) (h1 : hi ≤ (tv.domains d.g).gridSize 2) (hτ : 0 < τ)
    {of : Fin (y.np d.p) → Fin (z.np c.p)} {rho rho' : ℕ → K} (hrho : st.mech.laws c.c = .density rho) (hrho' : ut.mech.laws d.c = .density rho')
    (href : ∀ q, rho' q.val = rho (of q).val) {ξ : Fin (z.np c.p) → K} (hslab : Slab (tv.domains d.g) lo hi τ of ξ s2 s3) :
    ∃ t2 t3, st'.world.bodies c.p = .deformable t2 ∧ ut'.world.bodies d.p = .deformable t3 ∧
      st'.mech.laws c.c = .density rho ∧ ut'.mech.laws d.c = .density rho' ∧
      ∀ w, 0 ≤ w → (∀ q, |t3.position q 2 - s3.position q 2| ≤ w * (tv.domains d.g).cellSize) →
        Slab (tv.domains d.g) (lo + (2 * halfWidth c.ker + w)) (hi - (2 * halfWidth c.ker + w)) τ of ξ t2 t3 := by
  have oL : ∀ i, (sv.laws i).OnlyStress := fun i => by rw [hL i]; exact k.onlyStress fl
  have oL' : ∀ i, (tv.laws i).OnlyStress := fun i => by rw [hL' i]; exact k.onlyStress fl
  have hcm : c ∈ sv.couplings := by rw [hc]; simp
  have hdm : d ∈ tv.couplings := by rw [hd]; simp
  obtain ⟨t2, t3, b2, b3, hm, hw⟩ := slab_step gravs gravs' hforces hforces' oL oL' (fun i => by rw [hL i]; exact k.reset fl) (fun i => by rw [hL' i]; exact k.reset fl)
    h h' hr hr' halpha hdt c hcm hs (fun b hb _ _ => by rw [hc] at hb; simpa using hb) d hdm hds
    (fun b hb _ _ => by rw [hd] at hb; simpa using hb) hker hg hacc hb hb' h0 h1 hτ hslab
  obtain ⟨grids, f, x3, x4, S⟩ := usl_stages gravs (.inl rfl) hforces h hr
  obtain ⟨grids', f', x3', x4', S'⟩ := usl_stages gravs' (.inr rfl) hforces' h' hr'
  obtain ⟨s2', e1, -, -, hx⟩ := S.body c hcm hs
  rw [hb] at e1
  cases e1
  obtain ⟨s3', e1, -, -, hx'⟩ := S'.body d hdm hds
  rw [hb'] at e1
  cases e1
  have l2 := S.law
  have l3 := S'.law
  rw [hc] at l2
  rw [hd] at l3
  obtain ⟨q2, k2⟩ := fluid_single (hL c.c) hs (by rw [S.mech]; exact hrho) l2 hx (by rw [← S.world']; exact b2)
  obtain ⟨q3, k3⟩ := fluid_single (hL' d.c) hds (by rw [S'.mech]; exact hrho') l3 hx' (by rw [← S'.world']; exact b3)
  have st2 : ∀ i, t2.stress i = k.stress fl (t2.L i) (s2.mass i) (t2.volume i) (rho i.val) := fun i => by rw [q2]; rfl
  have st3 : ∀ i, t3.stress i = k.stress fl (t3.L i) (s3.mass i) (t3.volume i) (rho' i.val) := fun i => by rw [q3]; rfl
  have hL2 : ∀ i j, t2.L i 2 j = 0 ∧ t2.L i j 2 = 0 := fun i j => by
    rw [q2]
    exact plane_L c.ker (sv.domains c.g) s2.position sv.alpha st.dt (grids c.g) (resetBody s2) i j
  have hR := reach_pos (K := K) c.ker
  obtain ⟨o, e, hh, pad, hpos, -, hdom, -⟩ := hr'.box d hdm hds
  have hcell : 0 < (tv.domains d.g).cellSize := by rw [hdom]; exact hpos
  refine ⟨t2, t3, b2, b3, by rw [S.mech']; exact k2, by rw [S'.mech']; exact k3, fun w hw0 hwq => hw w hw0 hwq (fun q hq => ?_) fun i => ?_⟩
  · have hdeep : InLayers (tv.domains d.g) (lo + 2 * halfWidth c.ker) (hi - 2 * halfWidth c.ker) (s3.position q) := by
      intro i
      have h1 := hq 0
      set g3 := tv.domains d.g with hg3
      change _ ≤ (t3.position q 2 - g3.origin 2) / g3.cellSize ∧ (t3.position q 2 - g3.origin 2) / g3.cellSize < _ at h1
      have h2 := abs_le.mp (hwq q)
      change _ ≤ (s3.position q 2 - g3.origin 2) / g3.cellSize ∧ (s3.position q 2 - g3.origin 2) / g3.cellSize < _
      have e : (t3.position q 2 - g3.origin 2) / g3.cellSize = (s3.position q 2 - g3.origin 2) / g3.cellSize +
          (t3.position q 2 - s3.position q 2) / g3.cellSize := by rw [← add_div]; congr 1; ring
      have e1 : -w ≤ (t3.position q 2 - s3.position q 2) / g3.cellSize := by rw [le_div_iff₀ hcell]; linarith [h2.1]
      have e2 : (t3.position q 2 - s3.position q 2) / g3.cellSize ≤ w := by rw [div_le_iff₀ hcell]; exact h2.2
      rw [e] at h1
      exact ⟨by linarith [h1.1], by linarith [h1.2]⟩
    have hmq := hm q hdeep
    rw [st2, st3, hmq.2.2.2.2.1, hmq.2.2.2.2.2.2, hslab.mass q fun i => ⟨by linarith [(hdeep i).1], by linarith [(hdeep i).2]⟩, href]
    exact k.thick fl _ hτ _ _ _
  · rw [st2]
    exact k.shear fl _ _ _ _ (hL2 i)

/-- **C159, runs of a Newtonian fluid or a granular flow.** As `slab_elastic_run_partial`. -/
theorem slab_fluid_run_partial (gravs : List (List (Fin z.G) × ℕ)) (gravs' : List (List (Fin y.G) × ℕ)) (hforces : sv.forces = gravityList gravs)
    (hforces' : tv.forces = gravityList gravs') {k : FlowLaw K} (hL : ∀ i, sv.laws i = k.law fl)
    (hL' : ∀ i, tv.laws i = k.law fl) (n : ℕ)
    {st st' : SimState z K 2 SS (LawState K) (ForceState K 2)} {ut ut' : SimState y K 3 SS' (LawState K) (ForceState K 3)}
    (h : runSteps (uslCall fn sv) n st = .ok st') (h' : runSteps (uslCall fn' tv) n ut = .ok ut')
    (hr : AlongRun fn sv n st (Regular uslCutoff sv)) (hr' : AlongRun fn' tv n ut (Regular uslCutoff tv))
    (halpha : tv.alpha = sv.alpha) (hdt : ut.dt = st.dt) {c : Coupling z} (hc : sv.couplings = [c]) (hs : c.skip = false)
    {d : Coupling y} (hd : tv.couplings = [d]) (hds : d.skip = false)
    (hker : d.ker = c.ker) (hg : GridOver (sv.domains c.g) (tv.domains d.g))
    (hacc : (∀ a : Fin 2, gridAccel ut.mech.forces gravs' d.g a.castSucc = gridAccel st.mech.forces gravs c.g a) ∧
      gridAccel ut.mech.forces gravs' d.g 2 = 0)
    {s2 : MPState K 2 (z.np c.p)} {s3 : MPState K 3 (y.np d.p)} (hb : st.world.bodies c.p = .deformable s2)
    (hb' : ut.world.bodies d.p = .deformable s3) {lo hi τ w : K} (h0 : 0 ≤ lo) (h1 : hi ≤ (tv.domains d.g).gridSize 2) (hτ : 0 < τ) (hw0 : 0 ≤ w)
    (hw : ∀ k < n, ∀ u1 u2, runSteps (uslCall fn' tv) k ut = .ok u1 → uslCall fn' tv u1 = .ok u2 →
      ∀ r1 r2 : MPState K 3 (y.np d.p), u1.world.bodies d.p = .deformable r1 → u2.world.bodies d.p = .deformable r2 →
        ∀ q, |r2.position q 2 - r1.position q 2| ≤ w * (tv.domains d.g).cellSize)
    {of : Fin (y.np d.p) → Fin (z.np c.p)} {rho rho' : ℕ → K} (hrho : st.mech.laws c.c = .density rho) (hrho' : ut.mech.laws d.c = .density rho')
    (href : ∀ q, rho' q.val = rho (of q).val) {ξ : Fin (z.np c.p) → K} (hslab : Slab (tv.domains d.g) lo hi τ of ξ s2 s3) :
    ∃ t2 t3, st'.world.bodies c.p = .deformable t2 ∧ ut'.world.bodies d.p = .deformable t3 ∧
      st'.mech.laws c.c = .density rho ∧ ut'.mech.laws d.c = .density rho' ∧
      Slab (tv.domains d.g) (lo + n * (2 * halfWidth c.ker + w)) (hi - n * (2 * halfWidth c.ker + w)) τ of ξ t2 t3 := by
  have oL : ∀ i, (sv.laws i).OnlyStress := fun i => by rw [hL i]; exact k.onlyStress fl
  have oL' : ∀ i, (tv.laws i).OnlyStress := fun i => by rw [hL' i]; exact k.onlyStress fl
  have hR := reach_pos (K := K) c.ker
  induction n generalizing st' ut' with
  | zero =>
    have e1 : st = st' := by simpa [runSteps] using h
    have e2 : ut = ut' := by simpa [runSteps] using h'
    subst e1 e2
    exact ⟨s2, s3, hb, hb', hrho, hrho', by simpa using hslab⟩
  | succ n ih =>
    obtain ⟨st1, a1, a2⟩ := runSteps_succ_ok.mp h
    obtain ⟨ut1, b1, b2⟩ := runSteps_succ_ok.mp h'
    obtain ⟨r2, r3, hr2, hr3, m2, m3, hsl⟩ := ih a1 b1 (fun i hi => hr i (by omega)) (fun i hi => hr' i (by omega)) (fun i hi => hw i (by omega))
    obtain ⟨e1, e2, -⟩ := usl_run_momentum gravs (.inl rfl) hforces oL n a1 (fun i hi => hr i (by omega))
    obtain ⟨e3, e4, -⟩ := usl_run_momentum gravs' (.inr rfl) hforces' oL' n b1 (fun i hi => hr' i (by omega))
    have hn : (0 : K) ≤ n * (2 * halfWidth c.ker + w) := by positivity
    obtain ⟨t2, t3, c2, c3, k2, k3, hstep⟩ := slab_fluid_step gravs gravs' hforces hforces' hL hL' a2 b2 (hr n (by omega) st1 a1)
      (hr' n (by omega) ut1 b1) halpha (by rw [e2, e4]; exact hdt) hc hs hd hds hker hg (by rw [e1, e3]; exact hacc) hr2 hr3
      (lo := lo + n * (2 * halfWidth c.ker + w)) (hi := hi - n * (2 * halfWidth c.ker + w)) (by linarith) (by linarith) hτ m2 m3 href hsl
    refine ⟨t2, t3, c2, c3, k2, k3, ?_⟩
    have := hstep w hw0 (hw n (by omega) ut1 ut' b1 b2 r3 t3 hr3 c3)
    rw [show lo + ((n + 1 : ℕ) : K) * (2 * halfWidth c.ker + w) = lo + n * (2 * halfWidth c.ker + w) + (2 * halfWidth c.ker + w) by push_cast; ring,
      show hi - ((n + 1 : ℕ) : K) * (2 * halfWidth c.ker + w) = hi - n * (2 * halfWidth c.ker + w) - (2 * halfWidth c.ker + w) by push_cast; ring]
    exact this

end
end Hydrax
