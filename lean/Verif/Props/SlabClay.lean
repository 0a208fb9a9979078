import Verif.Props.SlabSand

/-!
# A plane clay bed is a slice of a clay bed in space (C159)
-/

set_option linter.unusedSectionVars false

namespace Hydrax
open Spec

section
variable {K : Type*} [Field K] [LinearOrder K] [IsStrictOrderedRing K] [FloorRing K] {z y : Sz} {SS SS' : Type*} {fn fn' fl : MathFns K}
  {ops : NewtonOps K} {sv : Solver z K 2 SS (LawState K) (ForceState K 2)} {tv : Solver y K 3 SS' (LawState K) (ForceState K 3)}

/-- Strains, preconsolidation pressures and reference stresses of points above each other agree; strains, reference stresses and stresses of the
plane have no shear across it. -/
structure ClaySlab {n m : ℕ} (g : GridDomain K 3) (lo hi : K) (of : Fin m → Fin n) (e2 : ℕ → Mat3 K) (a2 : ℕ → K) (b2 : ℕ → Mat3 K) (e3 : ℕ → Mat3 K)
    (a3 : ℕ → K) (b3 : ℕ → Mat3 K) (σ : Fin n → Mat3 K) (x : Fin m → Fin 3 → K) : Prop where
  same : ∀ q, InLayers g lo hi (x q) → e3 q.val = e2 (of q).val ∧ a3 q.val = a2 (of q).val ∧ b3 q.val = b2 (of q).val
  plane : ∀ i : Fin n, Across (e2 i.val)
  ref : ∀ i : Fin n, Across (b2 i.val)
  stress : ∀ i, Across (σ i)

/-- With one coupling and clay, stress and strains after the call are those of the law. -/
theorem clay_single {w : Sz} {dim : ℕ} {SS : Type*} {fn fl : MathFns K} {sv : Solver w K dim SS (LawState K) (ForceState K dim)}
    {pr : MCCParams K} {dt : K} {c : Coupling w} (hlaw : sv.laws c.c = mccLaw fl ops pr false) (hs : c.skip = false)
    {x x' : Ctx w K dim SS (LawState K) (ForceState K dim)} {e : ℕ → Mat3 K} {a : ℕ → K} {b : ℕ → Mat3 K}
    (hls : x.mech.laws c.c = .mcc a (some b) e)
    (h : foldE (lawCoupling fn sv.laws dt) x [c] = .ok x') {t t' : MPState K dim (w.np c.p)} (hb : x.world.bodies c.p = .deformable t)
    (hb' : x'.world.bodies c.p = .deformable t') :
    t' = { t with stress := fun p => (mccUpdate fl ops pr (t.L p) (e p.val) (t.stress p) (a p.val) (b p.val) (pr.rhoP / t.density p) dt).stress } ∧
    ∃ e' a', x'.mech.laws c.c = .mcc a' (some b) e' ∧ ∀ p : Fin (w.np c.p),
      e' p.val = (mccUpdate fl ops pr (t.L p) (e p.val) (t.stress p) (a p.val) (b p.val) (pr.rhoP / t.density p) dt).epsE ∧
      a' p.val = (mccUpdate fl ops pr (t.L p) (e p.val) (t.stress p) (a p.val) (b p.val) (pr.rhoP / t.density p) dt).pc := by
  have h : lawCoupling fn sv.laws dt x c = .ok x' := by
    obtain ⟨x1, h1, h2⟩ := andThen_ok.mp h
    have : x1 = x' := Except.ok.inj h2
    rw [← this]; exact h1
  obtain ⟨s, r, e1, e2, rfl⟩ := lawCoupling_ok hs h
  rw [hb] at e1
  cases e1
  rw [hlaw, hls] at e2
  have e3 := Except.ok.inj e2
  have : Body.deformable (removeShear fn (sv.laws c.c).requiresFReset r.1) = Body.deformable t' := by
    rw [← hb']
    simp [Ctx.setBody, World.setBody]
  have e4 := Body.deformable.inj this
  rw [hlaw] at e4
  constructor
  · rw [← e4, ← e3]
    rfl
  · rw [← e3]
    refine ⟨_, _, by simp; exact ⟨rfl, rfl⟩, fun p => ?_⟩
    simp only [ofFin, p.isLt, dite_true]
    exact ⟨trivial, trivial⟩

theorem across_jaumann {T W : Mat3 K} (hT : Across T) (hW : Across W) (dt : K) : Across (jaumann T W dt) :=
  hT.add (((hW.mul hT).sub (hT.mul hW)).smul _)

theorem across_dev {σ : Mat3 K} (h : Across σ) (p : K) : Across (devStressP σ p) := by
  unfold devStressP
  exact h.sub (Across.iso _)

theorem mccTrial_across (fl : MathFns K) (pr : MCCParams K) {L e σ b : Mat3 K} (hL : Across L) (he : Across e) (hσ : Across σ) (hb : Across b)
    (a dt : K) : Across (mccTrial fl pr L e σ a b dt).deps ∧ Across (mccTrial fl pr L e σ a b dt).epsERot ∧
      Across (mccTrial fl pr L e σ a b dt).s0 ∧ Across (mccTrial fl pr L e σ a b dt).sTr := by
  have hW : Across (spinTensor L) := (hL.sub hL.transpose).smul _
  have hd : Across (mccTrial fl pr L e σ a b dt).deps := ((hL.add hL.transpose).smul _).smul _
  exact ⟨hd, across_jaumann he hW dt, across_dev hb _, ((hd.sub (Across.iso _)).smul _).add (across_dev (across_jaumann hσ hW dt) _)⟩

/-- The return map makes no shear across the plane. -/
theorem mccUpdate_across (fl : MathFns K) (ops : NewtonOps K) (pr : MCCParams K) {L e σ b : Mat3 K} (hL : Across L) (he : Across e) (hσ : Across σ)
    (hb : Across b) (a v dt : K) :
    Across (mccUpdate fl ops pr L e σ a b v dt).stress ∧ Across (mccUpdate fl ops pr L e σ a b v dt).epsE := by
  obtain ⟨h1, h2, h3, h4⟩ := mccTrial_across fl pr hL he hσ hb a dt
  unfold mccUpdate
  simp only
  split_ifs
  · have hs : ∀ f : K, Across (fun i j => if (f • (mccTrial fl pr L e σ a b dt).sTr) i j ≠ 0 then (f • (mccTrial fl pr L e σ a b dt).sTr) i j
        else (mccTrial fl pr L e σ a b dt).sTr i j) := fun f => by
      obtain ⟨g1, g2, g3, g4⟩ := h4
      simp [Across, Matrix.smul_apply, g1, g2, g3, g4]
    exact ⟨(hs _).add (Across.iso _), (((hs _).sub h3).smul _).add (Across.iso _)⟩
  · exact ⟨h4.add (Across.iso _), h2.add h1⟩
  · exact ⟨⟨rfl, rfl, rfl, rfl⟩, h2⟩

/-- **C159, one step of clay.** The slab is one unit thick, as the density adds a constant to the volume. -/
theorem slab_clay_step (gravs : List (List (Fin z.G) × ℕ)) (gravs' : List (List (Fin y.G) × ℕ)) (hforces : sv.forces = gravityList gravs)
    (hforces' : tv.forces = gravityList gravs') {pr : MCCParams K} (hL : ∀ i, sv.laws i = mccLaw fl ops pr false)
    (hL' : ∀ i, tv.laws i = mccLaw fl ops pr false)
    {st st' : SimState z K 2 SS (LawState K) (ForceState K 2)} {ut ut' : SimState y K 3 SS' (LawState K) (ForceState K 3)}
    (h : uslCall fn sv st = .ok st') (h' : uslCall fn' tv ut = .ok ut') (hr : Regular uslCutoff sv st.world) (hr' : Regular uslCutoff tv ut.world)
    (halpha : tv.alpha = sv.alpha) (hdt : ut.dt = st.dt) {c : Coupling z} (hc : sv.couplings = [c]) (hs : c.skip = false)
    {d : Coupling y} (hd : tv.couplings = [d]) (hds : d.skip = false)
    (hker : d.ker = c.ker) (hg : GridOver (sv.domains c.g) (tv.domains d.g))
    (hacc : (∀ a : Fin 2, gridAccel ut.mech.forces gravs' d.g a.castSucc = gridAccel st.mech.forces gravs c.g a) ∧
      gridAccel ut.mech.forces gravs' d.g 2 = 0)
    {s2 : MPState K 2 (z.np c.p)} {s3 : MPState K 3 (y.np d.p)} (hb : st.world.bodies c.p = .deformable s2)
    (hb' : ut.world.bodies d.p = .deformable s3) {lo hi : K} (h0 : 0 ≤ lo) (h1 : hi ≤ (tv.domains d.g).gridSize 2)
    {of : Fin (y.np d.p) → Fin (z.np c.p)} {ε ε' : ℕ → Mat3 K} {α α' : ℕ → K} {β β' : ℕ → Mat3 K} (hls : st.mech.laws c.c = .mcc α (some β) ε)
    (hls' : ut.mech.laws d.c = .mcc α' (some β') ε')
    (hclay : ClaySlab (tv.domains d.g) lo hi of ε α β ε' α' β' s2.stress s3.position) {ξ : Fin (z.np c.p) → K} (hslab : Slab (tv.domains d.g) lo hi 1 of ξ s2 s3) :
    ∃ t2 t3 η η' γ γ', st'.world.bodies c.p = .deformable t2 ∧ ut'.world.bodies d.p = .deformable t3 ∧
      st'.mech.laws c.c = .mcc γ (some β) η ∧ ut'.mech.laws d.c = .mcc γ' (some β') η' ∧
      ∀ w, 0 ≤ w → (∀ q, |t3.position q 2 - s3.position q 2| ≤ w * (tv.domains d.g).cellSize) →
        Slab (tv.domains d.g) (lo + (2 * halfWidth c.ker + w)) (hi - (2 * halfWidth c.ker + w)) 1 of ξ t2 t3 ∧
        ClaySlab (tv.domains d.g) (lo + (2 * halfWidth c.ker + w)) (hi - (2 * halfWidth c.ker + w)) of η γ β η' γ' β' t2.stress t3.position := by
  have oL : ∀ i, (sv.laws i).OnlyStress := fun i => by rw [hL i]; exact LibLaw.onlyStress (.mcc fl ops pr false)
  have oL' : ∀ i, (tv.laws i).OnlyStress := fun i => by rw [hL' i]; exact LibLaw.onlyStress (.mcc fl ops pr false)
  have hcm : c ∈ sv.couplings := by rw [hc]; simp
  have hdm : d ∈ tv.couplings := by rw [hd]; simp
  obtain ⟨t2, t3, b2, b3, hm, hw⟩ := slab_step gravs gravs' hforces hforces' oL oL' (fun i => by rw [hL i]; rfl) (fun i => by rw [hL' i]; rfl)
    h h' hr hr' halpha hdt c hcm hs (fun b hb _ _ => by rw [hc] at hb; simpa using hb) d hdm hds
    (fun b hb _ _ => by rw [hd] at hb; simpa using hb) hker hg hacc hb hb' h0 h1 one_pos hslab
  obtain ⟨grids, f, x3, x4, S⟩ := usl_stages gravs (.inl rfl) hforces h hr
  obtain ⟨grids', f', x3', x4', S'⟩ := usl_stages gravs' (.inr rfl) hforces' h' hr'
  obtain ⟨s2', e1, -, -, hx⟩ := S.body c hcm hs
  rw [hb] at e1
  cases e1
  obtain ⟨s3', e1, -, -, hx'⟩ := S'.body d hdm hds
  rw [hb'] at e1
  cases e1
  have l2 := S.law
  have l3 := S'.law
  rw [hc] at l2
  rw [hd] at l3
  obtain ⟨q2, η, γ, k2, z2⟩ := clay_single (hL c.c) hs (by rw [S.mech]; exact hls) l2 hx (by rw [← S.world']; exact b2)
  obtain ⟨q3, η', γ', k3, z3⟩ := clay_single (hL' d.c) hds (by rw [S'.mech]; exact hls') l3 hx' (by rw [← S'.world']; exact b3)
  have st2 : ∀ i, t2.stress i = (mccUpdate fl ops pr (t2.L i) (ε i.val) (s2.stress i) (α i.val) (β i.val) (pr.rhoP / (s2.mass i / (t2.volume i + 1 / 10 ^ 16))) st.dt).stress :=
    fun i => by rw [q2]; rfl
  have st3 : ∀ i, t3.stress i = (mccUpdate fl ops pr (t3.L i) (ε' i.val) (s3.stress i) (α' i.val) (β' i.val) (pr.rhoP / (s3.mass i / (t3.volume i + 1 / 10 ^ 16))) ut.dt).stress :=
    fun i => by rw [q3]; rfl
  have y2 : ∀ i : Fin (z.np c.p), η i.val = (mccUpdate fl ops pr (t2.L i) (ε i.val) (s2.stress i) (α i.val) (β i.val) (pr.rhoP / (s2.mass i / (t2.volume i + 1 / 10 ^ 16))) st.dt).epsE ∧
      γ i.val = (mccUpdate fl ops pr (t2.L i) (ε i.val) (s2.stress i) (α i.val) (β i.val) (pr.rhoP / (s2.mass i / (t2.volume i + 1 / 10 ^ 16))) st.dt).pc :=
    fun i => by rw [q2]; exact z2 i
  have y3 : ∀ i : Fin (y.np d.p), η' i.val = (mccUpdate fl ops pr (t3.L i) (ε' i.val) (s3.stress i) (α' i.val) (β' i.val) (pr.rhoP / (s3.mass i / (t3.volume i + 1 / 10 ^ 16))) ut.dt).epsE ∧
      γ' i.val = (mccUpdate fl ops pr (t3.L i) (ε' i.val) (s3.stress i) (α' i.val) (β' i.val) (pr.rhoP / (s3.mass i / (t3.volume i + 1 / 10 ^ 16))) ut.dt).pc :=
    fun i => by rw [q3]; exact z3 i
  have hL2 : ∀ i j, t2.L i 2 j = 0 ∧ t2.L i j 2 = 0 := fun i j => by
    rw [q2]
    exact plane_L c.ker (sv.domains c.g) s2.position sv.alpha st.dt (grids c.g) (resetBody s2) i j
  have hR := reach_pos (K := K) c.ker
  obtain ⟨o, e, hh, pad, hpos, -, hdom, -⟩ := hr'.box d hdm hds
  have hcell : 0 < (tv.domains d.g).cellSize := by rw [hdom]; exact hpos
  have across : ∀ i, Across (t2.L i) := fun i => ⟨(hL2 i 0).1, (hL2 i 1).1, (hL2 i 0).2, (hL2 i 1).2⟩
  refine ⟨t2, t3, η, η', γ, γ', b2, b3, by rw [S.mech']; exact k2, by rw [S'.mech']; exact k3, fun w hw0 hwq => ?_⟩
  have alike : ∀ q, InLayers (tv.domains d.g) (lo + (2 * halfWidth c.ker + w)) (hi - (2 * halfWidth c.ker + w)) (t3.position q) →
      mccUpdate fl ops pr (t3.L q) (ε' q.val) (s3.stress q) (α' q.val) (β' q.val) (pr.rhoP / (s3.mass q / (t3.volume q + 1 / 10 ^ 16))) ut.dt =
        mccUpdate fl ops pr (t2.L (of q)) (ε (of q).val) (s2.stress (of q)) (α (of q).val) (β (of q).val) (pr.rhoP / (s2.mass (of q) / (t2.volume (of q) + 1 / 10 ^ 16))) st.dt ∧
      β' q.val = β (of q).val := by
    intro q hq
    have hdeep : InLayers (tv.domains d.g) (lo + 2 * halfWidth c.ker) (hi - 2 * halfWidth c.ker) (s3.position q) := by
      intro i
      have h1 := hq 0
      set g3 := tv.domains d.g with hg3
      change _ ≤ (t3.position q 2 - g3.origin 2) / g3.cellSize ∧ (t3.position q 2 - g3.origin 2) / g3.cellSize < _ at h1
      have h2 := abs_le.mp (hwq q)
      change _ ≤ (s3.position q 2 - g3.origin 2) / g3.cellSize ∧ (s3.position q 2 - g3.origin 2) / g3.cellSize < _
      have e : (t3.position q 2 - g3.origin 2) / g3.cellSize = (s3.position q 2 - g3.origin 2) / g3.cellSize +
          (t3.position q 2 - s3.position q 2) / g3.cellSize := by rw [← add_div]; congr 1; ring
      have e1 : -w ≤ (t3.position q 2 - s3.position q 2) / g3.cellSize := by rw [le_div_iff₀ hcell]; linarith [h2.1]
      have e2 : (t3.position q 2 - s3.position q 2) / g3.cellSize ≤ w := by rw [div_le_iff₀ hcell]; exact h2.2
      rw [e] at h1
      exact ⟨by linarith [h1.1], by linarith [h1.2]⟩
    have hmq := hm q hdeep
    have hin : InLayers (tv.domains d.g) lo hi (s3.position q) := fun i => ⟨by linarith [(hdeep i).1], by linarith [(hdeep i).2]⟩
    obtain ⟨g1, g2, g3⟩ := hclay.same q hin
    rw [hmq.2.2.2.2.1, hmq.2.2.2.2.2.2, hslab.mass q hin, hslab.stress q hin, g1, g2, g3, hdt, one_mul, one_mul]
    exact ⟨rfl, rfl⟩
  refine ⟨hw w hw0 hwq (fun q hq => ?_) fun i => ?_, fun q hq => ?_, fun i => ?_, hclay.ref, fun i => ?_⟩
  · rw [st2, st3, (alike q hq).1]
  · rw [st2]
    have := (mccUpdate_across fl ops pr (across i) (hclay.plane i) (hclay.stress i) (hclay.ref i) (α i.val) (pr.rhoP / (s2.mass i / (t2.volume i + 1 / 10 ^ 16))) st.dt).1
    exact ⟨this.1, this.2.1⟩
  · rw [(y2 _).1, (y2 _).2, (y3 q).1, (y3 q).2, (alike q hq).1]
    exact ⟨rfl, rfl, (alike q hq).2⟩
  · rw [(y2 i).1]
    exact (mccUpdate_across fl ops pr (across i) (hclay.plane i) (hclay.stress i) (hclay.ref i) _ _ _).2
  · rw [st2]
    exact (mccUpdate_across fl ops pr (across i) (hclay.plane i) (hclay.stress i) (hclay.ref i) _ _ _).1

/-- **C159, runs of clay.** As `slab_elastic_run_partial`. -/
theorem slab_clay_run_partial (gravs : List (List (Fin z.G) × ℕ)) (gravs' : List (List (Fin y.G) × ℕ)) (hforces : sv.forces = gravityList gravs)
    (hforces' : tv.forces = gravityList gravs') {pr : MCCParams K} (hL : ∀ i, sv.laws i = mccLaw fl ops pr false)
    (hL' : ∀ i, tv.laws i = mccLaw fl ops pr false) (n : ℕ)
    {st st' : SimState z K 2 SS (LawState K) (ForceState K 2)} {ut ut' : SimState y K 3 SS' (LawState K) (ForceState K 3)}
    (h : runSteps (uslCall fn sv) n st = .ok st') (h' : runSteps (uslCall fn' tv) n ut = .ok ut')
    (hr : AlongRun fn sv n st (Regular uslCutoff sv)) (hr' : AlongRun fn' tv n ut (Regular uslCutoff tv))
    (halpha : tv.alpha = sv.alpha) (hdt : ut.dt = st.dt) {c : Coupling z} (hc : sv.couplings = [c]) (hs : c.skip = false)
    {d : Coupling y} (hd : tv.couplings = [d]) (hds : d.skip = false)
    (hker : d.ker = c.ker) (hg : GridOver (sv.domains c.g) (tv.domains d.g))
    (hacc : (∀ a : Fin 2, gridAccel ut.mech.forces gravs' d.g a.castSucc = gridAccel st.mech.forces gravs c.g a) ∧
      gridAccel ut.mech.forces gravs' d.g 2 = 0)
    {s2 : MPState K 2 (z.np c.p)} {s3 : MPState K 3 (y.np d.p)} (hb : st.world.bodies c.p = .deformable s2)
    (hb' : ut.world.bodies d.p = .deformable s3) {lo hi w : K} (h0 : 0 ≤ lo) (h1 : hi ≤ (tv.domains d.g).gridSize 2) (hw0 : 0 ≤ w)
    (hw : ∀ k < n, ∀ u1 u2, runSteps (uslCall fn' tv) k ut = .ok u1 → uslCall fn' tv u1 = .ok u2 →
      ∀ r1 r2 : MPState K 3 (y.np d.p), u1.world.bodies d.p = .deformable r1 → u2.world.bodies d.p = .deformable r2 →
        ∀ q, |r2.position q 2 - r1.position q 2| ≤ w * (tv.domains d.g).cellSize)
    {of : Fin (y.np d.p) → Fin (z.np c.p)} {ε ε' : ℕ → Mat3 K} {α α' : ℕ → K} {β β' : ℕ → Mat3 K} (hls : st.mech.laws c.c = .mcc α (some β) ε)
    (hls' : ut.mech.laws d.c = .mcc α' (some β') ε')
    (hclay : ClaySlab (tv.domains d.g) lo hi of ε α β ε' α' β' s2.stress s3.position) {ξ : Fin (z.np c.p) → K} (hslab : Slab (tv.domains d.g) lo hi 1 of ξ s2 s3) :
    ∃ t2 t3 η η' γ γ', st'.world.bodies c.p = .deformable t2 ∧ ut'.world.bodies d.p = .deformable t3 ∧
      st'.mech.laws c.c = .mcc γ (some β) η ∧ ut'.mech.laws d.c = .mcc γ' (some β') η' ∧
      Slab (tv.domains d.g) (lo + n * (2 * halfWidth c.ker + w)) (hi - n * (2 * halfWidth c.ker + w)) 1 of ξ t2 t3 ∧
      ClaySlab (tv.domains d.g) (lo + n * (2 * halfWidth c.ker + w)) (hi - n * (2 * halfWidth c.ker + w)) of η γ β η' γ' β' t2.stress t3.position := by
  have oL : ∀ i, (sv.laws i).OnlyStress := fun i => by rw [hL i]; exact LibLaw.onlyStress (.mcc fl ops pr false)
  have oL' : ∀ i, (tv.laws i).OnlyStress := fun i => by rw [hL' i]; exact LibLaw.onlyStress (.mcc fl ops pr false)
  have hR := reach_pos (K := K) c.ker
  induction n generalizing st' ut' with
  | zero =>
    have e1 : st = st' := by simpa [runSteps] using h
    have e2 : ut = ut' := by simpa [runSteps] using h'
    subst e1 e2
    exact ⟨s2, s3, ε, ε', α, α', hb, hb', hls, hls', by simpa using hslab, by simpa using hclay⟩
  | succ n ih =>
    obtain ⟨st1, a1, a2⟩ := runSteps_succ_ok.mp h
    obtain ⟨ut1, b1, b2⟩ := runSteps_succ_ok.mp h'
    obtain ⟨r2, r3, η, η', γ, γ', hr2, hr3, m2, m3, hsl, hsn⟩ := ih a1 b1 (fun i hi => hr i (by omega)) (fun i hi => hr' i (by omega)) (fun i hi => hw i (by omega))
    obtain ⟨e1, e2, -⟩ := usl_run_momentum gravs (.inl rfl) hforces oL n a1 (fun i hi => hr i (by omega))
    obtain ⟨e3, e4, -⟩ := usl_run_momentum gravs' (.inr rfl) hforces' oL' n b1 (fun i hi => hr' i (by omega))
    have hn : (0 : K) ≤ n * (2 * halfWidth c.ker + w) := by positivity
    obtain ⟨t2, t3, η1, η2, γ1, γ2, c2, c3, k2, k3, hstep⟩ := slab_clay_step gravs gravs' hforces hforces' hL hL' a2 b2 (hr n (by omega) st1 a1)
      (hr' n (by omega) ut1 b1) halpha (by rw [e2, e4]; exact hdt) hc hs hd hds hker hg (by rw [e1, e3]; exact hacc) hr2 hr3
      (lo := lo + n * (2 * halfWidth c.ker + w)) (hi := hi - n * (2 * halfWidth c.ker + w)) (by linarith) (by linarith) m2 m3 hsn hsl
    refine ⟨t2, t3, η1, η2, γ1, γ2, c2, c3, k2, k3, ?_⟩
    have := hstep w hw0 (hw n (by omega) ut1 ut' b1 b2 r3 t3 hr3 c3)
    rw [show lo + ((n + 1 : ℕ) : K) * (2 * halfWidth c.ker + w) = lo + n * (2 * halfWidth c.ker + w) + (2 * halfWidth c.ker + w) by push_cast; ring,
      show hi - ((n + 1 : ℕ) : K) * (2 * halfWidth c.ker + w) = hi - n * (2 * halfWidth c.ker + w) - (2 * halfWidth c.ker + w) by push_cast; ring]
    exact this

end
end Hydrax
