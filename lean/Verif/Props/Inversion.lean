import Verif.Lemmas.SceneUnique
import Verif.Props.Invariants
import Verif.Props.Blend
import Mathlib.Algebra.Order.BigOperators.Group.Finset

/-!
# Points do not turn inside out (C117)
-/

set_option linter.unusedSectionVars false

namespace Hydrax

section
variable {K : Type*} [Field K] [LinearOrder K] [IsStrictOrderedRing K]

/-- The strain increment of a step is small: every row of `dt L` has absolute sum below one. -/
def Spec.SmallStep (dt : K) (L : Mat3 K) : Prop := ∀ i, ∑ j, |dt * L i j| < 1

/-- A strictly diagonally dominant 2×2 determinant. -/
theorem det2_pos {e f h i : K} (h1 : |f| < e) (h2 : |h| < i) : 0 < e * i - f * h := by
  have h3 : |f * h| < e * i := by
    rw [abs_mul]
    exact mul_lt_mul'' h1 h2 (abs_nonneg _) (abs_nonneg _)
  linarith [le_abs_self (f * h)]

/-- A strictly diagonally dominant 3×3 determinant with positive diagonal is positive. -/
theorem det3_pos (M : Mat3 K) (h0 : |M 0 1| + |M 0 2| < M 0 0) (h1 : |M 1 0| + |M 1 2| < M 1 1)
    (h2 : |M 2 0| + |M 2 1| < M 2 2) : 0 < M.det := by
  have ha : 0 < M 0 0 := lt_of_le_of_lt (by positivity) h0
  have key : ∀ d e f b c : K, |b| + |c| < M 0 0 → |d| + |f| < e →
      |M 0 0 * f - d * c| < M 0 0 * e - d * b := by
    intro d e f b c hb hd
    have a1 : |M 0 0 * f - d * c| ≤ M 0 0 * |f| + |d| * |c| := by
      refine (abs_sub _ _).trans ?_
      rw [abs_mul, abs_mul, abs_of_pos ha]
    have a2 : d * b ≤ |d| * |b| := by rw [← abs_mul]; exact le_abs_self _
    have a3 : M 0 0 * (|d| + |f|) < M 0 0 * e := mul_lt_mul_of_pos_left hd ha
    have a4 : |d| * (|b| + |c|) ≤ |d| * M 0 0 := mul_le_mul_of_nonneg_left hb.le (abs_nonneg _)
    nlinarith
  have k1 := key (M 1 0) (M 1 1) (M 1 2) (M 0 1) (M 0 2) h0 h1
  have k2 := key (M 2 0) (M 2 2) (M 2 1) (M 0 2) (M 0 1) (by linarith) h2
  have k := det2_pos k1 k2
  have e : (M 0 0 * M 1 1 - M 1 0 * M 0 1) * (M 0 0 * M 2 2 - M 2 0 * M 0 2) -
      (M 0 0 * M 1 2 - M 1 0 * M 0 2) * (M 0 0 * M 2 1 - M 2 0 * M 0 1) = M 0 0 * M.det := by
    rw [Matrix.det_fin_three]; ring
  rw [e] at k
  exact pos_of_mul_pos_of_pos_left k ha.le
where
  pos_of_mul_pos_of_pos_left {a b : K} (h : 0 < a * b) (ha : 0 ≤ a) : 0 < b := by
    by_contra hb
    exact absurd h (not_lt.mpr (mul_nonpos_of_nonneg_of_nonpos ha (not_lt.mp hb)))

/-- The increment of the deformation gradient in a small step has a positive determinant. -/
theorem smallStep_det {dt : K} {L : Mat3 K} (h : Spec.SmallStep dt L) : 0 < (1 - dt • L : Mat3 K).det := by
  have e : ∀ i j, (1 - dt • L : Mat3 K) i j = (if i = j then 1 else 0) - dt * L i j := fun i j => by
    simp [Matrix.sub_apply, Matrix.one_apply, Matrix.smul_apply]
  have r : ∀ i, |dt * L i 0| + |dt * L i 1| + |dt * L i 2| < 1 := fun i => by
    have := h i; rwa [Fin.sum_univ_three] at this
  refine det3_pos _ ?_ ?_ ?_
  · have := r 0; have := le_abs_self (dt * L 0 0)
    simp only [e, Fin.isValue, reduceIte, Fin.reduceEq, zero_sub, abs_neg]; linarith
  · have := r 1; have := le_abs_self (dt * L 1 1)
    simp only [e, Fin.isValue, reduceIte, Fin.reduceEq, zero_sub, abs_neg]; linarith
  · have := r 2; have := le_abs_self (dt * L 2 2)
    simp only [e, Fin.isValue, reduceIte, Fin.reduceEq, zero_sub, abs_neg]; linarith

end

section
variable {z : Sz} {K : Type*} [Field K] [LinearOrder K] [IsStrictOrderedRing K] [FloorRing K] {dim : ℕ} {SS LS : Type*}
  {fn : MathFns K} {sv : Solver z K dim SS LS (ForceState K dim)}
  {call : SimState z K dim SS LS (ForceState K dim) →
    Except PyErr (SimState z K dim SS LS (ForceState K dim))}

/-- Deformation gradients of a body that is not inside out; in two dimensions without out-of-plane part. -/
def Spec.Upright {n : ℕ} (s : MPState K dim n) : Prop :=
  ∀ q, 0 < (s.F q).det ∧ (dim = 2 → Planar (s.F q) ∧ s.F q 2 2 = 1)

/-- After the grid-to-particle update of either solver the deformation gradient is the old one times the increment of the
recorded velocity gradient. -/
theorem g2p_increment {n : ℕ} {dt : K} {s r : MPState K dim n} (h : IsG2p fn dt s r) (q : Fin n)
    (h2 : dim = 2 → Planar (s.F q) ∧ s.F q 2 2 = 1) :
    r.F q = (1 - dt • r.L q) * s.F q ∧ (dim = 2 → Planar (r.F q) ∧ r.F q 2 2 = 1) ∧
      r.volume q = (r.F q).det * r.volume0 q := by
  have hF : r.F q = (if dim = 2 then set22 ((1 - dt • r.L q) * s.F q) 1 else (1 - dt • r.L q) * s.F q) ∧
      r.volume q = (r.F q).det * r.volume0 q := by
    obtain ⟨ker, dom, pos, gr, ⟨alpha, ghost, rfl⟩ | ⟨pr, cell, Bp, h⟩⟩ := h
    · exact ⟨rfl, rfl⟩
    · have := congrArg Prod.fst (aflipG2pBody_ok h)
      simp only at this; subst this
      exact ⟨rfl, rfl⟩
  by_cases hd : dim = 2
  · subst hd
    obtain ⟨ker, dom, pos, gr, h'⟩ := h
    have hp := plane_strain_g2p ker dom pos s r gr dt (h'.imp id fun ⟨pr, cell, Bp, h⟩ => ⟨_, pr, cell, Bp, h⟩) q
    obtain ⟨p1, p2, p3, p4⟩ := hp
    obtain ⟨f1, f2⟩ := h2 rfl
    refine ⟨?_, fun _ => ⟨p4 f1, p2⟩, hF.2⟩
    rw [hF.1, if_pos rfl]
    have e22 : ((1 - dt • r.L q) * s.F q) 2 2 = 1 := by
      obtain ⟨-, -, l3, l4⟩ := p3
      simp [Matrix.mul_apply, Fin.sum_univ_three, Matrix.sub_apply, l3, l4, p1, f2]
    funext i j
    unfold set22
    split_ifs with hij
    · rw [hij.1, hij.2, e22]
    · rfl
  · exact ⟨by rw [hF.1, if_neg hd], fun e => absurd e hd, hF.2⟩

/-- **C117** (one call). Small steps turn no point inside out. -/
theorem call_upright (hL : ∀ c, (sv.laws c).OnlyStress) (hf : ∀ f ∈ sv.forces, LibForce f)
    (hreset : ∀ c, (sv.laws c).requiresFReset = false ∨ dim = 3 ∧ ∀ x, fn.cbrt x ^ 3 = x)
    (hn : (sv.couplings.map (·.p)).Nodup) (hcall : IsSolverCall fn sv call)
    {st st' : SimState z K dim SS LS (ForceState K dim)} (h : call st = .ok st')
    (c : Coupling z) (hc : c ∈ sv.couplings) (hs : c.skip = false) {s s' : MPState K dim (z.np c.p)}
    (e : st.world.bodies c.p = .deformable s) (e' : st'.world.bodies c.p = .deformable s')
    (hu : Spec.Upright s) (hsmall : ∀ q, Spec.SmallStep st.dt (s'.L q)) :
    Spec.Upright s' ∧ ∀ q, 0 < s'.volume0 q → 0 < s'.volume q := by
  obtain ⟨s0, s1, r, σ, e0, h1, h2, h3⟩ := call_unique hL hf hn hcall h c hc hs
  obtain rfl : s = s0 := by rw [e] at e0; exact Body.deformable.inj e0
  obtain rfl : s' = removeShear fn (sv.laws c.c).requiresFReset { r with stress := σ } := by
    rw [e'] at h3; exact Body.deformable.inj h3
  have hF : s1.F = s.F := by rw [h1]
  have key : ∀ q, Spec.SmallStep st.dt (r.L q) → 0 < (r.F q).det ∧ (dim = 2 → Planar (r.F q) ∧ r.F q 2 2 = 1) ∧
      r.volume q = (r.F q).det * r.volume0 q := by
    intro q hq
    obtain ⟨a, b, d⟩ := g2p_increment h2 q (by rw [hF]; exact (hu q).2)
    refine ⟨?_, b, d⟩
    rw [a, Matrix.det_mul, hF]
    exact mul_pos (smallStep_det hq) (hu q).1
  rcases hreset c.c with hr | ⟨rfl, hcb⟩
  · rw [hr] at hsmall ⊢
    simp only [removeShear, Bool.false_eq_true, if_false] at hsmall ⊢
    refine ⟨fun q => ⟨(key q (hsmall q)).1, (key q (hsmall q)).2.1⟩, fun q hv => ?_⟩
    rw [(key q (hsmall q)).2.2]
    exact mul_pos (key q (hsmall q)).1 hv
  · unfold removeShear at hsmall ⊢
    split_ifs at hsmall ⊢ with hr
    · refine ⟨fun q => ⟨?_, fun e => absurd e (by decide)⟩, fun q hv => ?_⟩
      · change 0 < (cbar fn 3 (r.F q)).det
        rw [cbar_det_three hcb]
        exact (key q (hsmall q)).1
      · change 0 < r.volume q
        rw [(key q (hsmall q)).2.2]
        exact mul_pos (key q (hsmall q)).1 hv
    · refine ⟨fun q => ⟨(key q (hsmall q)).1, (key q (hsmall q)).2.1⟩, fun q hv => ?_⟩
      change 0 < r.volume q
      rw [(key q (hsmall q)).2.2]
      exact mul_pos (key q (hsmall q)).1 hv

/-- **C117** (runs). If every step of a run is small, for the velocity gradients recorded with its states, then every body
with an active coupling that starts upright ends upright, with positive volumes. -/
theorem run_upright (hL : ∀ c, (sv.laws c).OnlyStress) (hf : ∀ f ∈ sv.forces, LibForce f)
    (hreset : ∀ c, (sv.laws c).requiresFReset = false ∨ dim = 3 ∧ ∀ x, fn.cbrt x ^ 3 = x)
    (hn : (sv.couplings.map (·.p)).Nodup) (hcall : IsSolverCall fn sv call) (k : ℕ)
    {st st' : SimState z K dim SS LS (ForceState K dim)} (h : runSteps call k st = .ok st')
    (c : Coupling z) (hc : c ∈ sv.couplings) (hs : c.skip = false) {s : MPState K dim (z.np c.p)}
    (e : st.world.bodies c.p = .deformable s) (hu : Spec.Upright s)
    (hsmall : ∀ i, i < k → ∀ st1 s1, runSteps call (i + 1) st = .ok st1 → st1.world.bodies c.p = .deformable s1 →
      ∀ q, Spec.SmallStep st.dt (s1.L q)) (hv : ∀ q, 0 < s.volume q ∧ 0 < s.volume0 q) :
    ∃ s', st'.world.bodies c.p = .deformable s' ∧ Spec.Upright s' ∧ ∀ q, 0 < s'.volume q := by
  induction k generalizing st' with
  | zero =>
    have : st = st' := by simpa [runSteps] using h
    subst this
    exact ⟨s, e, hu, fun q => (hv q).1⟩
  | succ k ih =>
    obtain ⟨st1, h1, h2⟩ := runSteps_succ_ok.mp h
    obtain ⟨s1, e1, u1, -⟩ := ih h1 fun i hi => hsmall i (by omega)
    have hdt : st1.dt = st.dt := (clock_exact sv hcall k st st1 h1).2.2
    obtain ⟨s', e', -, hv0⟩ := (mass_volume0_invariant hL hf hcall (k + 1) st st' h c.p).1 s e
    have := call_upright hL hf hreset hn hcall h2 c hc hs e1 e' u1
      (by rw [hdt]; exact hsmall k (by omega) st' s' h e')
    exact ⟨s', e', this.1, fun q => this.2 q (by rw [hv0]; exact (hv q).2)⟩

end
/-- The bound is the best possible: with a row sum of exactly one the increment can flatten the point. -/
theorem smallStep_sharp {K : Type*} [Field K] [LinearOrder K] [IsStrictOrderedRing K] {dt : K} (hdt : 0 < dt) :
    ∃ L : Mat3 K, (∀ i, ∑ j, |dt * L i j| ≤ 1) ∧ (1 - dt • L : Mat3 K).det = 0 := by
  refine ⟨!![1 / dt, 0, 0; 0, 0, 0; 0, 0, 0], fun i => ?_, ?_⟩
  · fin_cases i <;> simp [Fin.sum_univ_three, hdt.ne']
  · rw [Matrix.det_fin_three]
    simp [Matrix.sub_apply, hdt.ne']

/-- Whether all increments of the state are small (a decidable copy of `SmallStep` for rational numbers). -/
def exSmallB (dt : ℚ) : Body ℚ 2 2 → Bool
  | .deformable s => decide (∀ q i, ∑ j, max (dt * s.L q i j) (-(dt * s.L q i j)) < 1)
  | .rigid _ => false

set_option maxRecDepth 100000 in
theorem exPic_small : checkOk (uslCall ratFns exPicSolver exLooseState)
    (fun s => exSmallB (1 / 100) (s.world.bodies (0 : Fin 1))) = true := by decide +kernel

theorem exLoose_upright : Spec.Upright { exBody with stress := fun _ => 0 } := by
  intro q
  have e : exBody.F q = 1 := by fin_cases q <;> rfl
  change 0 < (exBody.F q).det ∧ (2 = 2 → Planar (exBody.F q) ∧ exBody.F q 2 2 = 1)
  rw [e]
  exact ⟨by simp, fun _ => ⟨by simp [Planar], by simp⟩⟩

/-- `run_upright` on the example scene. -/
example : ∃ st' s', runSteps (uslCall ratFns exPicSolver) 1 exLooseState = .ok st' ∧
    st'.world.bodies (0 : Fin 1) = .deformable s' ∧ Spec.Upright s' ∧ ∀ q, 0 < s'.volume q := by
  obtain ⟨st', h⟩ := isOk_ok exPic_ok.1
  have h1 : runSteps (uslCall ratFns exPicSolver) 1 exLooseState = .ok st' :=
    runSteps_succ_ok.mpr ⟨_, rfl, h⟩
  have small : ∀ i, i < 1 → ∀ st1 (s1 : MPState ℚ 2 2), runSteps (uslCall ratFns exPicSolver) (i + 1) exLooseState = .ok st1 →
      st1.world.bodies (0 : Fin 1) = .deformable s1 → ∀ q, Spec.SmallStep (1 / 100) (s1.L q) := by
    intro i hi st1 s1 h2 e1 q j
    obtain rfl : i = 0 := by omega
    obtain ⟨st0, h0, h2⟩ := runSteps_succ_ok.mp h2
    obtain rfl : exLooseState = st0 := Except.ok.inj h0
    have hb := checkOk_ok exPic_small st1 h2
    rw [e1] at hb
    have := of_decide_eq_true hb q j
    simpa only [abs_eq_max_neg] using this
  have vol : ∀ q : Fin 2, 0 < exBody.volume q ∧ 0 < exBody.volume0 q := by decide +kernel
  obtain ⟨s', r⟩ := run_upright (fun _ => LibLaw.onlyStress (.elastic 1000 (1 / 4) false))
    (by intro f hf; simp [exPicSolver, exFreeSolver] at hf) (fun _ => .inl rfl)
    (by simp [exPicSolver, exFreeSolver, exSolver]) (.inl rfl) 1 h1 (exCoupling .linear)
    (by simp [exPicSolver, exFreeSolver, exSolver]) rfl rfl exLoose_upright small vol
  exact ⟨st', s', h1, r⟩

/-- Without the bound points do turn inside out, and no error is reported: in the example scene with a time step of 5 the
solver returns a state with a negative volume. -/
theorem large_step_inverts : ∃ st', uslCall ratFns exPicSolver { exLooseState with dt := 5 } = .ok st' ∧
    probe (.ok st') (0 : Fin 1) (fun s => s.volume (0 : Fin 2)) = some (-3 / 68) := by
  have h : (uslCall ratFns exPicSolver { exLooseState with dt := 5 }).isOk = true ∧
      checkOk (uslCall ratFns exPicSolver { exLooseState with dt := 5 })
        (fun s => probe (.ok s) (0 : Fin 1) (fun s => s.volume (0 : Fin 2)) == some (-3 / 68)) = true := by
    set_option maxRecDepth 100000 in decide +kernel
  obtain ⟨st', hc⟩ := isOk_ok h.1
  exact ⟨st', hc, by simpa using checkOk_ok h.2 st' hc⟩

end Hydrax
