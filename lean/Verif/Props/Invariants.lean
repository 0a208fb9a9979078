import Verif.Lemmas.SceneEst
import Verif.Lemmas.ExampleScene
import Mathlib.Tactic.Ring
import Mathlib.Tactic.FinCases
import Mathlib.Tactic.LinearCombination

/-!
# Properties C15–C19, C63, C66: invariants of runs of a whole scene

`sv` is any solver configuration with any number of bodies, grids, couplings and obstacles, the forces of
the package and laws that write only stresses (`LibLaw.onlyStress`: all laws of the package do).
`call` is a call of either solver.
-/

set_option linter.unusedSectionVars false

namespace Hydrax

section
variable {z : Sz} {K : Type*} [Field K] [LinearOrder K] [FloorRing K] {dim : ℕ} {SS LS : Type*}
  {fn : MathFns K} {sv : Solver z K dim SS LS (ForceState K dim)}
  {call : SimState z K dim SS LS (ForceState K dim) →
    Except PyErr (SimState z K dim SS LS (ForceState K dim))}

theorem massClosed : BodyClosed fn sv.laws
    (fun _ s s' => s'.mass = s.mass ∧ s'.volume0 = s.volume0) where
  refl _ _ := ⟨rfl, rfl⟩
  trans _ _ _ _ h1 h2 := ⟨h2.1.trans h1.1, h2.2.trans h1.2⟩
  damp _ _ _ := ⟨rfl, rfl⟩
  reset _ _ := ⟨rfl, rfl⟩
  g2p _ _ _ _ _ _ _ _ _ := ⟨rfl, rfl⟩
  aflip _ _ _ _ _ pr _ _ _ r h := by
    rw [aflipG2pBody_ok h]; exact ⟨rfl, rfl⟩
  stress _ _ _ := ⟨rfl, rfl⟩
  shear _ s c := by unfold removeShear; split_ifs <;> exact ⟨rfl, rfl⟩

/-- **C15.** After any number of steps every deformable body still is one, with the same masses and the
same reference volumes (and, by its type, the same number of points); a rigid body is unchanged. -/
theorem mass_volume0_invariant (hL : ∀ c, (sv.laws c).OnlyStress) (hf : ∀ f ∈ sv.forces, LibForce f)
    (hcall : IsSolverCall fn sv call) (k : ℕ) (st st' : SimState z K dim SS LS (ForceState K dim))
    (h : runSteps call k st = .ok st') (p : Fin z.P) :
    (∀ s, st.world.bodies p = .deformable s →
      ∃ s', st'.world.bodies p = .deformable s' ∧ s'.mass = s.mass ∧ s'.volume0 = s.volume0) ∧
    (∀ r, st.world.bodies p = .rigid r → st'.world.bodies p = .rigid r) := by
  have hr := run_rel massClosed hL hf hcall k st st' h p
  constructor
  · intro s hs
    rw [hs] at hr
    cases hb : st'.world.bodies p with
    | deformable s' => rw [hb] at hr; exact ⟨s', rfl, hr⟩
    | rigid r => rw [hb] at hr; exact absurd hr id
  · intro r hs
    rw [hs] at hr
    cases hb : st'.world.bodies p with
    | deformable s' => rw [hb] at hr; exact absurd hr id
    | rigid r' => rw [hb] at hr; exact congrArg _ (Eq.symm hr)

/-- `volume = det(F) * volume0` at every point. -/
def VolumeOk {n : ℕ} (s : MPState K dim n) : Prop := ∀ p, s.volume p = (s.F p).det * s.volume0 p

theorem det_smul_one3 (c : K) : (c • (1 : Mat3 K)).det = c ^ 3 := by
  rw [Matrix.det_smul, Matrix.det_one, mul_one, Fintype.card_fin]

theorem cbar_det_three (hcb : ∀ x, fn.cbrt x ^ 3 = x) (F : Mat3 K) : (cbar fn 3 F).det = F.det := by
  unfold cbar
  rw [if_neg (by decide), det_smul_one3, hcb]

theorem volumeOk_shear {b : Bool} (hb : b = false ∨ dim = 3 ∧ ∀ x, fn.cbrt x ^ 3 = x) {n : ℕ}
    {s : MPState K dim n} (h : VolumeOk s) : VolumeOk (removeShear fn b s) := by
  unfold removeShear
  rcases hb with rfl | ⟨rfl, hcb⟩
  · simpa using h
  · split_ifs
    · intro p
      change s.volume p = (cbar fn 3 (s.F p)).det * s.volume0 p
      rw [cbar_det_three hcb]; exact h p
    · exact h

theorem volumeOk_g2p {n w : ℕ} (alpha dt : K) (c : InteractionCache K n w) (ghost) (gr : GridArrays K dim)
    (s : MPState K dim n) : VolumeOk (g2pBody alpha dt c ghost gr s) := fun _ => rfl

theorem volumeOk_aflip {n w : ℕ} {sqrt : K → K} {pr : AflipParams K} {cell dt : K}
    {c : InteractionCache K n w} {gr : GridArrays K dim} {s : MPState K dim n} {r}
    (h : aflipG2pBody sqrt pr cell dt c gr s = .ok r) : VolumeOk r.1 := by
  rw [aflipG2pBody_ok h]; exact fun _ => rfl

/-- **C16** (partial): with three dimensions, or with laws that do not reset `F`, `volume = det(F) *
volume0` holds after every step for every body with an active coupling, whatever the state before, and it
is never lost by any other body. Missing: 2D with `requires_F_reset=True` (the default of four of the five
laws), where it is false, see `plane_reset_det_zero` and `volume_invariant_fails`. -/
theorem volume_invariant_partial (hL : ∀ c, (sv.laws c).OnlyStress) (hf : ∀ f ∈ sv.forces, LibForce f)
    (hreset : ∀ c, (sv.laws c).requiresFReset = false ∨ dim = 3 ∧ ∀ x, fn.cbrt x ^ 3 = x)
    (hcall : IsSolverCall fn sv call) (k : ℕ) (st st' : SimState z K dim SS LS (ForceState K dim))
    (h : runSteps call k st = .ok st') (p : Fin z.P) (s' : MPState K dim (z.np p))
    (hs' : st'.world.bodies p = .deformable s') :
    (0 < k → (∃ c ∈ sv.couplings, c.p = p ∧ c.skip = false) → VolumeOk s') ∧
    (∀ s, st.world.bodies p = .deformable s → VolumeOk s → VolumeOk s') := by
  constructor
  · rintro hk ⟨c, hc, rfl, hskip⟩
    obtain ⟨k, rfl⟩ : ∃ j, k = j + 1 := ⟨k - 1, by omega⟩
    obtain ⟨st1, -, h1⟩ := runSteps_succ_ok.mp h
    obtain ⟨s, hs, hI⟩ := call_establish (I := fun _ s => VolumeOk s)
      (fun _ _ _ _ _ _ _ _ _ => volumeOk_g2p _ _ _ _ _ _)
      (fun _ _ _ _ _ _ _ _ _ _ h => volumeOk_aflip h) (fun _ _ _ h => h)
      (fun _ _ c h => volumeOk_shear (hreset c) h) hL hf hcall h1 c hc hskip
    rw [hs'] at hs
    cases hs
    exact hI
  · intro s hs hv
    have hC : BodyClosed fn sv.laws (fun _ s s' => VolumeOk s → VolumeOk s') :=
      { refl := fun _ _ h => h
        trans := fun _ _ _ _ h1 h2 h => h2 (h1 h)
        damp := fun _ _ _ h => h
        reset := fun _ _ h => h
        g2p := fun _ _ _ _ _ _ _ _ _ _ => volumeOk_g2p _ _ _ _ _ _
        aflip := fun _ _ _ _ _ _ _ _ _ _ h _ => volumeOk_aflip h
        stress := fun _ _ _ h => h
        shear := fun _ _ c h => volumeOk_shear (hreset c) h }
    have hr := run_rel hC hL hf hcall k st st' h p
    rw [hs, hs'] at hr
    exact hr hv

theorem cbar_det_two (F : Mat3 K) : (cbar fn 2 F).det = 0 := by
  unfold cbar
  rw [if_pos rfl, Matrix.det_diagonal, Fin.prod_univ_three]
  simp

/-- **C16** refuted in 2D: if the law of an active coupling resets `F`, then after every step `det(F)` is
zero at every point of the body. -/
theorem plane_reset_det_zero {sv : Solver z K 2 SS LS (ForceState K 2)}
    {call : SimState z K 2 SS LS (ForceState K 2) → Except PyErr (SimState z K 2 SS LS (ForceState K 2))}
    (hL : ∀ c, (sv.laws c).OnlyStress) (hf : ∀ f ∈ sv.forces, LibForce f)
    (hcall : IsSolverCall fn sv call) (st st' : SimState z K 2 SS LS (ForceState K 2))
    (h : call st = .ok st') (c : Coupling z) (hc : c ∈ sv.couplings) (hs : c.skip = false)
    (hr : (sv.laws c.c).requiresFReset = true) :
    ∃ s, st'.world.bodies c.p = .deformable s ∧ ∀ p, (s.F p).det = 0 := by
  obtain ⟨w, x0, x2, x3, x4, g2p, -, -, -, -, -, -, h4, hw, -, -⟩ := call_stages hf hcall h
  rw [hw]
  refine foldE_establish (I := fun y => ∃ s, y.world.bodies c.p = .deformable s ∧ ∀ p, (s.F p).det = 0)
    sv.couplings x3 x4 c hc ?_ ?_ h4
  · intro y y' hy
    obtain ⟨s, r, hb, hu, rfl⟩ := lawCoupling_ok hs hy
    refine ⟨_, setBody_self _ _ _, fun p => ?_⟩
    unfold removeShear
    rw [if_pos hr]
    exact cbar_det_two _
  · intro b _ y y' hI hy
    cases hsb : b.skip with
    | true => rw [lawCoupling_skip hsb hy]; exact hI
    | false =>
      obtain ⟨s, r, hb, hu, rfl⟩ := lawCoupling_ok hsb hy
      by_cases hq : c.p = b.p
      · rw [hq] at hI ⊢
        obtain ⟨s', hs', hI⟩ := hI
        rw [hb] at hs'
        cases hs'
        refine ⟨_, setBody_self _ _ _, fun p => ?_⟩
        unfold removeShear
        split_ifs
        · exact cbar_det_two _
        · rw [hL b.c s _ _ r hu]; exact hI p
      · exact (setBody_ne y hq (.deformable (removeShear fn (sv.laws b.c).requiresFReset r.1))) ▸ hI

/-- The body moved by one call on the example scene. -/
def exResult (ker : Kernel) (reset : Bool) : Except PyErr (SimState exSz ℚ 2 Unit (LawState ℚ) (ForceState ℚ 2)) :=
  uslCall ratFns (exSolver ker reset) exState

set_option maxRecDepth 100000 in
theorem exResult_ok (reset : Bool) : (exResult .linear reset).isOk = true := by
  cases reset <;> decide +kernel

set_option maxRecDepth 100000 in
theorem exResult_volume : probe (exResult .linear true) (0 : Fin 1) (fun s => s.volume (0 : Fin 2) / s.volume0 (0 : Fin 2)) ≠ some 0 := by
  decide +kernel

theorem exSolver_lib (ker : Kernel) (reset : Bool) :
    (∀ c, ((exSolver ker reset).laws c).OnlyStress) ∧ ∀ f ∈ (exSolver ker reset).forces, LibForce f := by
  constructor
  · intro c; exact (LibLaw.elastic _ _ _).onlyStress
  · intro f hf
    rw [exSolver_forces, List.mem_singleton] at hf
    subst hf
    exact LibForce.gravity _ _ _ _

/-- **C16** refuted: one call on a 2D scene with the default setting `requires_F_reset=True` leaves a
point with `volume ≠ det(F) * volume0`. (`ratFns.sqrt` is a stand-in; it does not matter as the third row
of the reset `F` is zero.) -/
theorem volume_invariant_fails : ∃ st' s, uslCall ratFns (exSolver .linear true) exState = .ok st' ∧
    st'.world.bodies (0 : Fin 1) = .deformable s ∧ ¬ VolumeOk s := by
  have hok := exResult_ok true
  have hv := exResult_volume
  cases hr : exResult .linear true with
  | error e => rw [hr] at hok; simp [Except.isOk, Except.toBool] at hok
  | ok st' =>
    obtain ⟨s, hs, hdet⟩ := plane_reset_det_zero (exSolver_lib .linear true).1 (exSolver_lib .linear true).2
      (.inl rfl) exState st' hr (exCoupling .linear) (by simp [exSolver]) rfl rfl
    refine ⟨st', s, hr, hs, fun h => hv ?_⟩
    have h0 := h (0 : Fin 2)
    have hd : (s.F (0 : Fin 2)).det = 0 := hdet (0 : Fin 2)
    rw [hd, zero_mul] at h0
    rw [hr]
    have hs' : st'.world.bodies (0 : Fin 1) = .deformable s := hs
    unfold probe
    simp only [hs', h0, zero_div]

/-- **C18.** The clock. -/
theorem clock_exact (sv : Solver z K dim SS LS (ForceState K dim))
    (hcall : IsSolverCall fn sv call) (k : ℕ) (st st' : SimState z K dim SS LS (ForceState K dim))
    (h : runSteps call k st = .ok st') :
    st'.step = st.step + k ∧ st'.time = st.time + k * st.dt ∧ st'.dt = st.dt := by
  have one : ∀ a b, call a = .ok b → b.step = a.step + 1 ∧ b.time = a.time + a.dt ∧ b.dt = a.dt := by
    intro a b hab
    rcases hcall with rfl | ⟨pr, rfl⟩ <;>
    · obtain ⟨wm, x1, x2, x3, x4, -, -, -, -, -, rfl⟩ := callWith_ok hab
      exact ⟨rfl, rfl, rfl⟩
  induction k generalizing st' with
  | zero =>
    have : st = st' := by simpa [runSteps] using h
    subst this; simp
  | succ k ih =>
    obtain ⟨st1, h1, h2⟩ := runSteps_succ_ok.mp h
    obtain ⟨i1, i2, i3⟩ := ih st1 h1
    obtain ⟨o1, o2, o3⟩ := one _ _ h2
    refine ⟨by omega, ?_, o3.trans i3⟩
    rw [o2, i2, i3]; push_cast; ring

/-! ### C17: plane strain -/

/-- No out-of-plane shear: block diagonal. -/
def Planar (M : Mat3 K) : Prop := M 0 2 = 0 ∧ M 1 2 = 0 ∧ M 2 0 = 0 ∧ M 2 1 = 0

theorem Planar.mul {A B : Mat3 K} (hA : Planar A) (hB : Planar B) : Planar (A * B) := by
  obtain ⟨a1, a2, a3, a4⟩ := hA
  obtain ⟨b1, b2, b3, b4⟩ := hB
  refine ⟨?_, ?_, ?_, ?_⟩ <;> simp [Matrix.mul_apply, Fin.sum_univ_three, *]

theorem Planar.set22 {A : Mat3 K} (hA : Planar A) (v : K) : Planar (set22 A v) := by
  obtain ⟨a1, a2, a3, a4⟩ := hA
  refine ⟨?_, ?_, ?_, ?_⟩ <;> simp [Hydrax.set22, *]

theorem Planar.inc {A : Mat3 K} (hA : Planar A) (dt : K) : Planar (1 - dt • A) := by
  obtain ⟨a1, a2, a3, a4⟩ := hA
  refine ⟨?_, ?_, ?_, ?_⟩ <;> simp [*]

theorem pad3_two (v : Fin 2 → K) : pad3 v 2 = 0 := by simp [pad3]

/-- In two dimensions the third component of every weight gradient is zero. -/
theorem shapeGrad_two {n : ℕ} (ker : Kernel) (dom : GridDomain K 2) (pos : Fin n → Fin 2 → K)
    (i : Fin (n * windowSize ker 2)) : (compute ker dom pos).shapeGrad i 2 = 0 := by
  simp only [compute, computeSingle]
  split_ifs
  · simp only [shapeFunction]; rw [pad3_two]
  · rfl

theorem pointSum_zero {n w : ℕ} (c : InteractionCache K n w) (f : Fin (n * w) → K) (hf : ∀ i, f i = 0)
    (p : Fin n) : pointSum c f p = 0 := by
  unfold pointSum
  exact Finset.sum_eq_zero fun i _ => hf i

theorem planar_L_g2p {n : ℕ} (ker : Kernel) (dom : GridDomain K 2) (pos : Fin n → Fin 2 → K)
    (alpha dt : K) (ghost) (gr : GridArrays K 2) (s : MPState K 2 n) (p : Fin n) :
    Planar ((g2pBody alpha dt (compute ker dom pos) ghost gr s).L p) := by
  simp only [g2pBody, if_true]
  apply Planar.set22
  refine ⟨?_, ?_, ?_, ?_⟩ <;> refine pointSum_zero _ _ (fun i => ?_) p
  · rw [pad3_two]; ring
  · rw [pad3_two]; ring
  · rw [shapeGrad_two]; ring
  · rw [shapeGrad_two]; ring

theorem planar_pBp {n : ℕ} (ker : Kernel) (dom : GridDomain K 2) (pos : Fin n → Fin 2 → K)
    (cut : K) (gr : GridArrays K 2) (p : Fin n) :
    Planar ((aflipGather cut (compute ker dom pos) gr).pBp p) := by
  refine ⟨?_, ?_, ?_, ?_⟩ <;> refine pointSum_zero _ _ (fun i => ?_) p
  · rw [shapeGrad_two]; ring
  · rw [shapeGrad_two]; ring
  · rw [pad3_two]; ring
  · rw [pad3_two]; ring

/-- **C17** (one update). After the grid-to-particle update of either solver in 2D: `L[2,2] = 0`,
`F[2,2] = 1`, `L` has no out-of-plane part, and `F` has none if it had none before. -/
theorem plane_strain_g2p {n : ℕ} (ker : Kernel) (dom : GridDomain K 2) (pos : Fin n → Fin 2 → K)
    (s r : MPState K 2 n) (gr : GridArrays K 2) (dt : K)
    (h : (∃ alpha ghost, r = g2pBody alpha dt (compute ker dom pos) ghost gr s) ∨
      ∃ sqrt pr cell Bp, aflipG2pBody sqrt pr cell dt (compute ker dom pos) gr s = .ok (r, Bp))
    (p : Fin n) :
    r.L p 2 2 = 0 ∧ r.F p 2 2 = 1 ∧ Planar (r.L p) ∧ (Planar (s.F p) → Planar (r.F p)) := by
  rcases h with ⟨alpha, ghost, rfl⟩ | ⟨sqrt, pr, cell, Bp, h⟩
  · refine ⟨by simp [g2pBody, set22], by simp [g2pBody, set22], planar_L_g2p _ _ _ _ _ _ _ _ _, ?_⟩
    intro hF
    have hLp := planar_L_g2p ker dom pos alpha dt ghost gr s p
    simp only [g2pBody, if_true] at hLp ⊢
    exact ((hLp.inc dt).mul hF).set22 1
  · have := congrArg Prod.fst (aflipG2pBody_ok h)
    simp only at this; subst this
    refine ⟨by simp [aflipG2pMls, set22], by simp [aflipG2pMls, set22], ?_, ?_⟩
    · simp only [aflipG2pMls, if_true]; exact (planar_pBp _ _ _ _ _ _).set22 0
    · intro hF
      simp only [aflipG2pMls, if_true]
      exact ((((planar_pBp ker dom pos pr.cutoff gr p).set22 0).inc dt).mul hF).set22 1

theorem planar_cbar (F : Mat3 K) : Planar (cbar fn 2 F) := by
  refine ⟨?_, ?_, ?_, ?_⟩ <;> simp [cbar, Matrix.diagonal]

/-- **C17** (runs). In a 2D run without out-of-plane parts in `F` and `L` at the start there are none
after any number of steps, and a body that has been stepped has `L[2,2] = 0`, and `F[2,2] = 1` if its law does not
reset `F`. -/
theorem plane_strain_run {sv : Solver z K 2 SS LS (ForceState K 2)}
    {call : SimState z K 2 SS LS (ForceState K 2) → Except PyErr (SimState z K 2 SS LS (ForceState K 2))}
    (hL : ∀ c, (sv.laws c).OnlyStress) (hf : ∀ f ∈ sv.forces, LibForce f)
    (hcall : IsSolverCall fn sv call) (k : ℕ) (st st' : SimState z K 2 SS LS (ForceState K 2))
    (h : runSteps call k st = .ok st') (p : Fin z.P) (s s' : MPState K 2 (z.np p))
    (hs : st.world.bodies p = .deformable s) (hs' : st'.world.bodies p = .deformable s') :
    ((∀ q, Planar (s.F q) ∧ Planar (s.L q)) → ∀ q, Planar (s'.F q) ∧ Planar (s'.L q)) ∧
    (0 < k → (∃ c ∈ sv.couplings, c.p = p ∧ c.skip = false) → ∀ q, s'.L q 2 2 = 0) ∧
    (0 < k → (∃ c ∈ sv.couplings, c.p = p ∧ c.skip = false) →
      (∀ c, (sv.laws c).requiresFReset = false) → ∀ q, s'.F q 2 2 = 1) := by
  refine ⟨?_, ?_, ?_⟩
  · have hC : BodyClosed fn sv.laws (fun n (s s' : MPState K 2 n) =>
        (∀ q, Planar (s.F q) ∧ Planar (s.L q)) → ∀ q, Planar (s'.F q) ∧ Planar (s'.L q)) :=
      { refl := fun _ _ h => h
        trans := fun _ _ _ _ h1 h2 h => h2 (h1 h)
        damp := fun _ _ _ h => h
        reset := fun _ _ h q => ⟨(h q).1, by simp [Planar, resetBody]⟩
        g2p := fun _ s ker dom pos alpha dt ghost gr h q => by
          have := plane_strain_g2p ker dom pos s _ gr dt (.inl ⟨alpha, ghost, rfl⟩) q
          exact ⟨this.2.2.2 (h q).1, this.2.2.1⟩
        aflip := fun _ s ker dom pos pr cell dt gr r hr h q => by
          have := plane_strain_g2p ker dom pos s r.1 gr dt (.inr ⟨fn.sqrt, pr, cell, r.2, hr⟩) q
          exact ⟨this.2.2.2 (h q).1, this.2.2.1⟩
        stress := fun _ _ _ h => h
        shear := fun _ s c h q => by
          unfold removeShear
          split_ifs
          · exact ⟨planar_cbar _, (h q).2⟩
          · exact h q }
    have hr := run_rel hC hL hf hcall k st st' h p
    rw [hs, hs'] at hr
    exact hr
  · rintro hk ⟨c, hc, rfl, hskip⟩
    obtain ⟨k, rfl⟩ : ∃ j, k = j + 1 := ⟨k - 1, by omega⟩
    obtain ⟨st1, -, h1⟩ := runSteps_succ_ok.mp h
    obtain ⟨s2, hs2, hI⟩ := call_establish (I := fun _ s => ∀ q, s.L q 2 2 = 0)
      (fun _ s ker dom pos alpha dt ghost gr q =>
        (plane_strain_g2p ker dom pos s _ gr dt (.inl ⟨alpha, ghost, rfl⟩) q).1)
      (fun _ s ker dom pos pr cell dt gr r hr q =>
        (plane_strain_g2p ker dom pos s r.1 gr dt (.inr ⟨fn.sqrt, pr, cell, r.2, hr⟩) q).1)
      (fun _ _ _ h => h)
      (fun _ _ c h => by unfold removeShear; split_ifs <;> exact h) hL hf hcall h1 c hc hskip
    rw [hs'] at hs2
    cases hs2
    exact hI
  · rintro hk ⟨c, hc, rfl, hskip⟩ hno
    obtain ⟨k, rfl⟩ : ∃ j, k = j + 1 := ⟨k - 1, by omega⟩
    obtain ⟨st1, -, h1⟩ := runSteps_succ_ok.mp h
    obtain ⟨s2, hs2, hI⟩ := call_establish (I := fun _ s => ∀ q, s.F q 2 2 = 1)
      (fun _ s ker dom pos alpha dt ghost gr q =>
        (plane_strain_g2p ker dom pos s _ gr dt (.inl ⟨alpha, ghost, rfl⟩) q).2.1)
      (fun _ s ker dom pos pr cell dt gr r hr q =>
        (plane_strain_g2p ker dom pos s r.1 gr dt (.inr ⟨fn.sqrt, pr, cell, r.2, hr⟩) q).2.1)
      (fun _ _ _ h => h)
      (fun _ _ c h => by unfold removeShear; rw [if_neg (by simp [hno c])]; exact h)
      hL hf hcall h1 c hc hskip
    rw [hs'] at hs2
    cases hs2
    exact hI

end

/-! ### Concrete runs meeting the hypotheses -/

theorem isOk_ok {α : Type*} {x : Except PyErr α} (h : x.isOk = true) : ∃ a, x = .ok a := by
  cases x with
  | error e => simp [Except.isOk, Except.toBool] at h
  | ok a => exact ⟨a, rfl⟩

set_option maxRecDepth 100000 in
/-- Two steps under gravity succeed in the example scene. -/
theorem exRun_ok (reset : Bool) :
    ∃ st', runSteps (uslCall ratFns (exSolver .linear reset)) 2 exState = .ok st' := by
  apply isOk_ok
  cases reset <;> decide +kernel

example (reset : Bool) : ∃ st' s', runSteps (uslCall ratFns (exSolver .linear reset)) 2 exState = .ok st' ∧
    st'.world.bodies (0 : Fin 1) = .deformable s' ∧ s'.mass = exBody.mass ∧ s'.volume0 = exBody.volume0 := by
  obtain ⟨st', h⟩ := exRun_ok reset
  obtain ⟨s', h1, h2⟩ := (mass_volume0_invariant (exSolver_lib .linear reset).1
    (exSolver_lib .linear reset).2 (.inl rfl) 2 exState st' h (0 : Fin 1)).1 exBody rfl
  exact ⟨st', s', h, h1, h2⟩

example : ∃ st' s', runSteps (uslCall ratFns (exSolver .linear false)) 2 exState = .ok st' ∧
    st'.world.bodies (0 : Fin 1) = .deformable s' ∧ VolumeOk s' ∧ (∀ q, s'.L q 2 2 = 0) ∧
    (∀ q, s'.F q 2 2 = 1) ∧ st'.step = 2 ∧ st'.time = 2 / 100 := by
  obtain ⟨st', h⟩ := exRun_ok false
  obtain ⟨hL, hf⟩ := exSolver_lib .linear false
  obtain ⟨s', h1, -⟩ := (mass_volume0_invariant hL hf (.inl rfl) 2 exState st' h (0 : Fin 1)).1 exBody rfl
  have hc : ∃ c ∈ (exSolver .linear false).couplings, c.p = (0 : Fin 1) ∧ c.skip = false :=
    ⟨exCoupling .linear, by simp [exSolver], rfl, rfl⟩
  have hv := (volume_invariant_partial hL hf (fun _ => .inl rfl) (.inl rfl) 2 exState st' h (0 : Fin 1)
    s' h1).1 (by norm_num) hc
  have hp := plane_strain_run hL hf (.inl rfl) 2 exState st' h (0 : Fin 1) exBody s' rfl h1
  have hk := clock_exact (exSolver .linear false) (.inl rfl) 2 exState st' h
  refine ⟨st', s', h, h1, hv, hp.2.1 (by norm_num) hc, hp.2.2 (by norm_num) hc (fun _ => rfl), ?_, ?_⟩
  · rw [hk.1]; rfl
  · rw [hk.2.1]; norm_num [exState]

/-- `F = 1`, `L = 0` at the start is in plane. -/
example : ∀ q, Planar (exBody.F q) ∧ Planar (exBody.L q) := by
  intro q
  refine ⟨⟨?_, ?_, ?_, ?_⟩, ⟨?_, ?_, ?_, ?_⟩⟩ <;> simp [exBody, MPState.create]

end Hydrax
