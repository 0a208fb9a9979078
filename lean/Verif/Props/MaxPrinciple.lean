import Verif.Props.Blend

/-!
# Velocities stay within their range (C116)
-/

set_option linter.unusedSectionVars false

namespace Hydrax
open Spec

section
variable {z : Sz} {K : Type*} [Field K] [LinearOrder K] [IsStrictOrderedRing K] [FloorRing K] {dim : ℕ}
  {SS LS : Type*} {fn : MathFns K} {sv : Solver z K dim SS LS (ForceState K dim)}

/-- Component `a` of the velocity of every point on grid `g` lies between `lo` and `hi`. -/
def Spec.VelocityIn (sv : Solver z K dim SS LS (ForceState K dim)) (g : Fin z.G) (w : World z K dim SS) (a : Fin dim)
    (lo hi : K) : Prop :=
  ∀ c ∈ sv.couplings, c.skip = false → c.g = g → ∀ s, w.bodies c.p = .deformable s → ∀ q,
    lo ≤ s.velocity q a ∧ s.velocity q a ≤ hi

theorem gridSum_le_gridSum (cs : List (Coupling z)) (g : Fin z.G) (f f' : Coupling z → K)
    (h : ∀ c ∈ cs, c.skip = false → c.g = g → f c ≤ f' c) : gridSum cs g f ≤ gridSum cs g f' := by
  induction cs with
  | nil => simp [gridSum]
  | cons c cs ih =>
    simp only [gridSum_cons]
    have := ih fun d hd => h d (by simp [hd])
    split_ifs with hc
    · have := h c (by simp) hc.1 hc.2; linarith
    · linarith

theorem scatterAdd_le {m : ℕ} (idx : Fin m → ℕ) (u v : Fin m → K) (h : ∀ i, u i ≤ v i) (j : ℕ) :
    scatterAdd idx u j ≤ scatterAdd idx v j := by
  unfold scatterAdd
  refine Finset.sum_le_sum fun i _ => ?_
  split_ifs
  · exact h i
  · exact le_rfl

theorem scatterAdd_const {m : ℕ} (idx : Fin m → ℕ) (u : Fin m → K) (q : K) (j : ℕ) :
    scatterAdd idx (fun i => u i * q) j = scatterAdd idx u j * q := by
  unfold scatterAdd
  rw [Finset.sum_mul]
  exact Finset.sum_congr rfl fun i _ => by split_ifs <;> simp

/-- A weighted mean lies in the range of the values. -/
theorem pointSum_range {n w N : ℕ} {c : InteractionCache K n w} (hc : GoodCache c N) (u : Fin (n * w) → K) (lo hi : K)
    (h : ∀ i, c.shapeVal i ≠ 0 → lo ≤ u i ∧ u i ≤ hi) (p : Fin n) :
    lo ≤ pointSum c (fun i => c.shapeVal i * u i) p ∧ pointSum c (fun i => c.shapeVal i * u i) p ≤ hi := by
  have h1 : ∑ i with c.pointId i = p, c.shapeVal i = 1 := hc.sum_val p
  have key : ∀ q : K, ∑ i with c.pointId i = p, c.shapeVal i * q = q := fun q => by rw [← Finset.sum_mul, h1, one_mul]
  unfold pointSum
  constructor
  · rw [← key lo]
    refine Finset.sum_le_sum fun i _ => ?_
    by_cases h0 : c.shapeVal i = 0
    · simp [h0]
    · exact mul_le_mul_of_nonneg_left (h i h0).1 (hc.val_nonneg i)
  · rw [← key hi]
    refine Finset.sum_le_sum fun i _ => ?_
    by_cases h0 : c.shapeVal i = 0
    · simp [h0]
    · exact mul_le_mul_of_nonneg_left (h i h0).2 (hc.val_nonneg i)

/-- **C116** (step). A USL step of stress-free bodies under gravity creates no new extreme velocities: if every component of
the velocities on a grid lies in a range, it lies after the step in the range shifted by the fall, and every point is
displaced by `dt` times a velocity of that range. -/
theorem usl_no_new_extremes (gravs : List (List (Fin z.G) × ℕ)) (hdim : dim = 2 ∨ dim = 3)
    (hforces : sv.forces = gravityList gravs) (hL : ∀ c, (sv.laws c).OnlyStress) (h0 : 0 ≤ sv.alpha) (h1 : sv.alpha ≤ 1)
    {st st' : SimState z K dim SS LS (ForceState K dim)}
    (h : uslCall fn sv st = .ok st') (hr : Regular uslCutoff sv st.world)
    (hσ : ∀ c ∈ sv.couplings, c.skip = false → ∀ s, st.world.bodies c.p = .deformable s → ∀ q, s.stress q = 0)
    (g : Fin z.G) (a : Fin dim) (lo hi : K) (hv : VelocityIn sv g st.world a lo hi) :
    VelocityIn sv g st'.world a (lo + st.dt * gridAccel st.mech.forces gravs g a)
      (hi + st.dt * gridAccel st.mech.forces gravs g a) ∧
    ∀ c ∈ sv.couplings, c.skip = false → c.g = g → ∀ s s', st.world.bodies c.p = .deformable s →
      st'.world.bodies c.p = .deformable s' → ∀ q, ∃ w, lo + st.dt * gridAccel st.mech.forces gravs g a ≤ w ∧
        w ≤ hi + st.dt * gridAccel st.mech.forces gravs g a ∧ s'.position q a = s.position q a + st.dt * w := by
  obtain ⟨grids, f, x3, x4, S⟩ := usl_stages gravs hdim hforces h hr
  have hlaw := (law_fold hL st.dt sv.couplings x3 x4 S.law).2
  have hf := S.stressfree hσ
  set d := st.dt * gridAccel st.mech.forces gravs g a with hd
  have hnonneg : ∀ j, ∀ c ∈ sv.couplings, c.skip = false →
      0 ≤ (st.world.bodies c.p).nodeMass c.ker (sv.domains c.g) j := by
    intro j c hc hs
    obtain ⟨s, e1, hgc, hm, -⟩ := S.body c hc hs
    rw [e1]
    exact nodeMass_nonneg hgc s.mass (fun q => (hm q).le) j
  -- momentum of a node between the extreme velocities
  have hmom : ∀ j, lo * (grids g).mass j ≤ (grids g).moment j a ∧ (grids g).moment j a ≤ hi * (grids g).mass j := by
    intro j
    rw [S.mass, S.moment, mul_comm lo, mul_comm hi, gridSum_mul, gridSum_mul]
    have hb : ∀ c ∈ sv.couplings, c.skip = false → c.g = g →
        (st.world.bodies c.p).nodeMass c.ker (sv.domains c.g) j * lo ≤
            (st.world.bodies c.p).nodeMoment c.ker (sv.domains c.g) j a ∧
          (st.world.bodies c.p).nodeMoment c.ker (sv.domains c.g) j a ≤
            (st.world.bodies c.p).nodeMass c.ker (sv.domains c.g) j * hi := by
      intro c hc hs hg
      obtain ⟨s, e1, hgc, hm, -⟩ := S.body c hc hs
      have hvs := hv c hc hs hg s e1
      have hw : ∀ i, 0 ≤ (compute c.ker (sv.domains c.g) s.position).shapeVal i *
          s.mass ((compute c.ker (sv.domains c.g) s.position).pointId i) :=
        fun i => mul_nonneg (hgc.val_nonneg i) (hm _).le
      rw [e1]
      simp only [Body.nodeMass, Body.nodeMoment, nodeMass]
      rw [← scatterAdd_const, ← scatterAdd_const]
      exact ⟨scatterAdd_le _ _ _ (fun i => mul_le_mul_of_nonneg_left (hvs _).1 (hw i)) j,
        scatterAdd_le _ _ _ (fun i => mul_le_mul_of_nonneg_left (hvs _).2 (hw i)) j⟩
    exact ⟨gridSum_le_gridSum _ _ _ _ fun c hc hs hg => (hb c hc hs hg).1,
      gridSum_le_gridSum _ _ _ _ fun c hc hs hg => (hb c hc hs hg).2⟩
  have main : ∀ c ∈ sv.couplings, c.skip = false → c.g = g → ∀ s s', st.world.bodies c.p = .deformable s →
      st'.world.bodies c.p = .deformable s' → ∀ q, ∃ w, lo + d ≤ w ∧ w ≤ hi + d ∧
        s'.position q a = s.position q a + st.dt * w ∧
        s'.velocity q a = (1 - sv.alpha) * w + sv.alpha * (s.velocity q a + d) := by
    intro c hc hs hg s s' e1 e1' q
    obtain ⟨s0, e0, hgc, hm, e2⟩ := S.body c hc hs
    obtain rfl : s = s0 := by rw [e1] at e0; exact Body.deformable.inj e0
    have hl := hlaw c.p
    rw [e2, ← S.world', e1'] at hl
    obtain ⟨-, l2, l3, -⟩ := hl
    have hcut : ∀ i, (compute c.ker (sv.domains c.g) s.position).shapeVal i ≠ 0 →
        uslCutoff < (grids c.g).mass ((compute c.ker (sv.domains c.g) s.position).nodeHash i) := by
      intro i hi0
      set j := (compute c.ker (sv.domains c.g) s.position).nodeHash i with hj
      have hpos : 0 < (grids c.g).mass j := by
        refine lt_of_le_of_ne (S.mass_nonneg _ _) fun e => hi0 ?_
        have hz := gridSum_term_zero sv.couplings c.g _ (hnonneg j) ((S.mass c.g j).symm.trans e.symm) c hc hs rfl
        rw [e1] at hz
        exact val_zero_of_nodeMass hgc s.mass hm j hz i rfl
      have := hr.cutoff c.g j
      rw [← S.mass] at this
      exact this hpos
    have hrange := pointSum_range hgc (fun i =>
      nodeVel uslCutoff ((grids c.g).mass ((compute c.ker (sv.domains c.g) s.position).nodeHash i))
        ((grids c.g).momentNt ((compute c.ker (sv.domains c.g) s.position).nodeHash i) a)) (lo + d) (hi + d) (by
        intro i hi0
        have hc1 := hcut i hi0
        set j := (compute c.ker (sv.domains c.g) s.position).nodeHash i with hj
        have hp : 0 < (grids c.g).mass j := lt_trans (by unfold uslCutoff; positivity) hc1
        obtain ⟨b1, b2⟩ := hmom j
        rw [← hg] at b1 b2
        rw [S.momentNt c hc hs]
        unfold nodeVel
        simp only [gt_iff_lt, if_pos hc1, S.force, hf, zero_add]
        rw [le_div_iff₀ hp, div_le_iff₀ hp]
        have ed : (grids c.g).mass j * gridAccel st.mech.forces gravs c.g a * st.dt = d * (grids c.g).mass j := by
          rw [hd, ← hg]; ring
        rw [ed]
        constructor <;> linarith) q
    refine ⟨_, hrange.1, hrange.2, by rw [l3, mul_comm st.dt]; rfl, ?_⟩
    rw [l2]
    simp only [g2pBody, ghostBlend, resetBody]
    congr 2
    congr 1
    have hpu := pointSum_mul (compute c.ker (sv.domains c.g) s.position) d
      (compute c.ker (sv.domains c.g) s.position).shapeVal q
    rw [hgc.sum_val, mul_one] at hpu
    rw [← hpu]
    refine Finset.sum_congr rfl fun i _ => ?_
    beta_reduce
    by_cases hi0 : (compute c.ker (sv.domains c.g) s.position).shapeVal i = 0
    · rw [hi0, zero_mul, mul_zero]
    have hc1 := hcut i hi0
    set j := (compute c.ker (sv.domains c.g) s.position).nodeHash i with hj
    have hp : 0 < (grids c.g).mass j := lt_trans (by unfold uslCutoff; positivity) hc1
    rw [mul_comm d]
    congr 1
    rw [S.momentNt c hc hs]
    unfold nodeVel
    simp only [gt_iff_lt, if_pos hc1, S.force, hf]
    rw [hd, ← hg]
    field_simp
    ring
  constructor
  · intro c hc hs hg s' e' q
    obtain ⟨s, e1, -⟩ := S.body c hc hs
    obtain ⟨w, w1, w2, -, w4⟩ := main c hc hs hg s s' e1 e' q
    obtain ⟨v1, v2⟩ := hv c hc hs hg s e1 q
    rw [w4]
    have ha : 0 ≤ 1 - sv.alpha := by linarith
    constructor <;> nlinarith
  · intro c hc hs hg s s' e1 e1' q
    obtain ⟨w, w1, w2, w3, -⟩ := main c hc hs hg s s' e1 e1' q
    exact ⟨w, w1, w2, w3⟩

/-- **C116** (runs). Over any number of steps the range of the velocities only shifts with the fall. -/
theorem usl_run_no_new_extremes (gravs : List (List (Fin z.G) × ℕ)) (hdim : dim = 2 ∨ dim = 3)
    (hforces : sv.forces = gravityList gravs) (hL : ∀ c, (sv.laws c).OnlyStress) (h0 : 0 ≤ sv.alpha) (h1 : sv.alpha ≤ 1)
    (n : ℕ) {st st' : SimState z K dim SS LS (ForceState K dim)}
    (h : runSteps (uslCall fn sv) n st = .ok st') (hr : AlongRun fn sv n st (Regular uslCutoff sv))
    (hσ : AlongRun fn sv n st fun w => ∀ c ∈ sv.couplings, c.skip = false → ∀ s, w.bodies c.p = .deformable s →
      ∀ q, s.stress q = 0)
    (g : Fin z.G) (a : Fin dim) (lo hi : K) (hv : VelocityIn sv g st.world a lo hi) :
    VelocityIn sv g st'.world a (lo + n * st.dt * gridAccel st.mech.forces gravs g a)
      (hi + n * st.dt * gridAccel st.mech.forces gravs g a) := by
  induction n generalizing st' with
  | zero =>
    have : st = st' := by simpa [runSteps] using h
    subst this
    simpa using hv
  | succ n ih =>
    obtain ⟨s1, h1', h2⟩ := runSteps_succ_ok.mp h
    have hr' : AlongRun fn sv n st (Regular uslCutoff sv) := fun i hi => hr i (by omega)
    obtain ⟨e1, e2, -⟩ := usl_run_momentum gravs hdim hforces hL n h1' hr'
    have hi := ih h1' hr' (fun i hi => hσ i (by omega))
    have := (usl_no_new_extremes gravs hdim hforces hL h0 h1 h2 (hr n (by omega) s1 h1') (hσ n (by omega) s1 h1')
      g a _ _ hi).1
    rw [e1, e2] at this
    have e : ∀ x : K, x + n * st.dt * gridAccel st.mech.forces gravs g a + st.dt * gridAccel st.mech.forces gravs g a =
        x + (n + 1 : ℕ) * st.dt * gridAccel st.mech.forces gravs g a := fun x => by push_cast; ring
    rwa [e, e] at this

end

/-- Velocities of the example body. -/
theorem exLoose_range : VelocityIn exPicSolver (0 : Fin 1) exLooseState.world (0 : Fin 2) (-3) 1 := by
  intro c _ _ _ s hb q
  cases hb
  have key : ∀ q : Fin 2, -3 ≤ exBody.velocity q 0 ∧ exBody.velocity q 0 ≤ 1 := by decide +kernel
  exact key q

/-- `usl_no_new_extremes` on the example scene. -/
example : ∃ st', uslCall ratFns exPicSolver exLooseState = .ok st' ∧
    VelocityIn exPicSolver (0 : Fin 1) st'.world (0 : Fin 2) (-3) 1 := by
  obtain ⟨st', h⟩ := isOk_ok exPic_ok.1
  have := (usl_no_new_extremes [] (.inl rfl) rfl (fun _ => LibLaw.onlyStress (.elastic 1000 (1 / 4) false)) le_rfl
    zero_le_one h (exPic_regular exPic_ok.2.2) exLoose_stress (0 : Fin 1) (0 : Fin 2) (-3) 1 exLoose_range).1
  simp only [gridAccel, List.map_nil, List.sum_nil, mul_zero, add_zero] at this
  exact ⟨st', h, this⟩

end Hydrax
