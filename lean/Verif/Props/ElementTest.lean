import Verif.Model.ElementTest
import Verif.Model.LawTable
import Mathlib.Analysis.Normed.Algebra.MatrixExponential
import Mathlib.Analysis.SpecialFunctions.Log.Basic
import Mathlib.Analysis.SpecialFunctions.Exponential
import Mathlib.LinearAlgebra.Matrix.Determinant.Basic
import Mathlib.Data.List.GetD

/-!
# Element tests (C59, C60, C69, C71)
-/

set_option linter.unusedSectionVars false

namespace Hydrax

/-! ### C59: stride -/

section
variable {St : Type*} (f : St → ℕ → Except PyErr St)

theorem scanCarry_append (s : St) (a b : List ℕ) :
    scanCarry f s (a ++ b) = andThen (scanCarry f s a) fun s' => scanCarry f s' b := by
  induction a generalizing s with
  | nil => rfl
  | cons i is ih =>
    simp only [List.cons_append, scanCarry]
    cases f s i with
    | error e => rfl
    | ok s' => exact ih s'

/-- The states reached after each prefix of rows are the entries of the trajectory. -/
theorem scanRows_spec (rows : List (List ℕ)) (s : St) :
    (∀ e, scanRows f s rows = .error e → scanCarry f s rows.flatten = .error e) ∧
    (∀ t, scanRows f s rows = .ok t → t.length = rows.length ∧
      ∀ k (hk : k < t.length), scanCarry f s (rows.take (k + 1)).flatten = .ok t[k]) := by
  induction rows generalizing s with
  | nil =>
    refine ⟨fun e h => (by cases h), fun t h => ?_⟩
    have : t = [] := (Except.ok.inj h).symm
    subst this
    exact ⟨rfl, fun k hk => absurd hk (Nat.not_lt_zero k)⟩
  | cons r rs ih =>
    simp only [scanRows, List.flatten_cons, scanCarry_append]
    cases hr : scanCarry f s r with
    | error e =>
      refine ⟨fun e' h => ?_, fun t h => by cases h⟩
      have h1 : e = e' := Except.error.inj h
      subst h1
      rfl
    | ok s' =>
      have ih' := ih s'
      simp only [andThen]
      cases hs : scanRows f s' rs with
      | error e =>
        refine ⟨fun e' h => ?_, fun t h => by cases h⟩
        have h1 : e = e' := Except.error.inj h
        rw [← h1]
        exact ih'.1 e hs
      | ok t =>
        refine ⟨fun e' h => (by cases h), fun u hu => ?_⟩
        have h1 : s' :: t = u := Except.ok.inj hu
        subst h1
        obtain ⟨h2, h3⟩ := ih'.2 t hs
        refine ⟨by simp [h2], fun k hk => ?_⟩
        cases k with
        | zero =>
          simp only [Nat.zero_add, List.take_succ_cons, List.take_zero, List.flatten_cons, List.flatten_nil,
            List.append_nil, List.getElem_cons_zero]
          exact hr
        | succ k =>
          simp only [List.take_succ_cons, List.flatten_cons, scanCarry_append, hr, andThen, List.getElem_cons_succ]
          exact h3 k (by simpa using hk)

theorem indexRows_flatten (n s : ℕ) : (indexRows n s).flatten = List.range (n * s) := by
  induction n with
  | zero => simp [indexRows]
  | succ n ih =>
    have : indexRows (n + 1) s = indexRows n s ++ [(List.range s).map fun i => n * s + i] := by
      simp [indexRows, List.range_succ]
    rw [this, List.flatten_append, ih, Nat.succ_mul, List.range_add]
    simp

theorem indexRows_take (n s k : ℕ) (hk : k ≤ n) : (indexRows n s).take k = indexRows k s := by
  simp only [indexRows, ← List.map_take, List.take_range, min_eq_left hk]

theorem scanRows_index (n s : ℕ) (x : St) (t : List St) (h : scanRows f x (indexRows n s) = .ok t) :
    t.length = n ∧ ∀ k (hk : k < t.length), scanCarry f x (List.range ((k + 1) * s)) = .ok t[k] := by
  obtain ⟨h1, h2⟩ := (scanRows_spec f (indexRows n s) x).2 t h
  have hl : t.length = n := by simpa [indexRows] using h1
  refine ⟨hl, fun k hk => ?_⟩
  have := h2 k hk
  rwa [indexRows_take _ _ _ (by omega), indexRows_flatten] at this

theorem scanRows_error (n s : ℕ) (x : St) (e : PyErr) :
    scanRows f x (indexRows n s) = .error e ↔ scanCarry f x (List.range (n * s)) = .error e := by
  constructor
  · intro h
    have := (scanRows_spec f (indexRows n s) x).1 e h
    rwa [indexRows_flatten] at this
  · intro h
    cases hr : scanRows f x (indexRows n s) with
    | error e' =>
      have := (scanRows_spec f (indexRows n s) x).1 e' hr
      rw [indexRows_flatten, h] at this
      rw [Except.error.inj this]
    | ok t =>
      exfalso
      obtain ⟨h1, h2⟩ := scanRows_index f n s x t hr
      rcases Nat.eq_zero_or_pos n with rfl | hn
      · rw [Nat.zero_mul] at h; cases h
      · have := h2 (n - 1) (by omega)
        rw [Nat.sub_add_cancel hn, h] at this
        cases this

end

section
variable {K : Type*} [Field K] [DecidableEq K] {dim : ℕ} {LS : Type*}
variable (expm : Mat3 K → Mat3 K) (grad : (K → K) → K → K)

theorem run_eq (t : TriaxialTest K dim LS) (mp : MPState K dim 1) (ls : LS) (hs : 0 < t.stride)
    (hd : t.stride ∣ t.steps) :
    t.run expm grad mp ls = scanRows (t.stepIdx expm grad) (mp, ls) (indexRows (t.steps / t.stride) t.stride) := by
  unfold TriaxialTest.run
  rw [if_neg hs.ne', if_neg]
  exact not_not.mpr (Nat.div_mul_cancel hd)

/-- **C59**: a run with stride `s` dividing the number of steps fails exactly when the run with stride 1 fails, and
otherwise has `steps / s` entries, entry `k` being entry `(k+1)s - 1` of the run with stride 1. -/
theorem stride_subsamples (t : TriaxialTest K dim LS) (mp : MPState K dim 1) (ls : LS) (hs : 0 < t.stride)
    (hd : t.stride ∣ t.steps) :
    (∀ e, t.run expm grad mp ls = .error e ↔ { t with stride := 1 }.run expm grad mp ls = .error e) ∧
    ∀ full, { t with stride := 1 }.run expm grad mp ls = .ok full → full.length = t.steps ∧
      ∃ tr, t.run expm grad mp ls = .ok tr ∧ tr.length = t.steps / t.stride ∧
        ∀ k < t.steps / t.stride, tr[k]? = full[(k + 1) * t.stride - 1]? := by
  have h1 := run_eq expm grad { t with stride := 1 } mp ls Nat.one_pos (one_dvd _)
  have h2 := run_eq expm grad t mp ls hs hd
  have e1 : { t with stride := 1 }.steps / 1 = t.steps := Nat.div_one _
  have e2 : ({ t with stride := 1 } : TriaxialTest K dim LS).stepIdx expm grad = t.stepIdx expm grad := rfl
  simp only [e1, e2] at h1
  have herr : ∀ e, t.run expm grad mp ls = .error e ↔ { t with stride := 1 }.run expm grad mp ls = .error e := by
    intro e
    rw [h1, h2, scanRows_error, scanRows_error, Nat.div_mul_cancel hd, Nat.mul_one]
  refine ⟨herr, fun full hf => ?_⟩
  rw [h1] at hf
  obtain ⟨l1, g1⟩ := scanRows_index _ _ _ _ _ hf
  refine ⟨l1, ?_⟩
  cases hr : t.run expm grad mp ls with
  | error e =>
    have := (herr e).mp hr
    rw [h1, hf] at this
    cases this
  | ok tr =>
    rw [h2] at hr
    obtain ⟨l2, g2⟩ := scanRows_index _ _ _ _ _ hr
    refine ⟨tr, rfl, l2, fun k hk => ?_⟩
    have hk2 : (k + 1) * t.stride ≤ t.steps := by
      calc (k + 1) * t.stride ≤ t.steps / t.stride * t.stride := Nat.mul_le_mul_right _ hk
        _ = t.steps := Nat.div_mul_cancel hd
    have hk3 : 0 < (k + 1) * t.stride := Nat.mul_pos (Nat.succ_pos k) hs
    have a := g2 k (by omega)
    have b := g1 ((k + 1) * t.stride - 1) (by omega)
    rw [Nat.mul_one, Nat.sub_add_cancel hk3, a] at b
    rw [List.getElem?_eq_getElem (by omega), List.getElem?_eq_getElem (by omega), Except.ok.inj b]

/-- **C59**: a stride that does not divide the number of steps is an error, whatever the law. -/
theorem stride_not_dividing (t : TriaxialTest K dim LS) (mp : MPState K dim 1) (ls : LS) (hd : ¬ t.stride ∣ t.steps) :
    ∃ e, t.run expm grad mp ls = .error e := by
  simp only [TriaxialTest.run]
  split_ifs with h1 h2
  · exact ⟨_, rfl⟩
  · exact ⟨_, rfl⟩
  · exact absurd (Dvd.intro_left _ (not_not.mp h2)) hd

end

/-! ### C60: deformation -/

section
variable {dim : ℕ} {LS : Type*} (grad : (ℝ → ℝ) → ℝ → ℝ)

/-- `jax.scipy.linalg.expm`. -/
noncomputable def realExpm (A : Mat3 ℝ) : Mat3 ℝ := NormedSpace.exp A

theorem realExpm_diagonal (v : Fin 3 → ℝ) : realExpm (Matrix.diagonal v) = Matrix.diagonal fun i => Real.exp (v i) := by
  unfold realExpm
  rw [Matrix.exp_diagonal]
  congr 1
  funext i
  rw [Pi.coe_exp, Real.exp_eq_exp_ℝ]

theorem step_ok (d : Driver ℝ dim LS) (mp mp' : MPState ℝ dim 1) (ls ls' : LS) (lat rate dt : ℝ)
    (h : d.step realExpm mp ls (triaxialL lat rate) dt = .ok (mp', ls')) :
    (∀ p, mp'.F p = Matrix.diagonal ![Real.exp (-(dt * lat)), Real.exp (-(dt * lat)), Real.exp (-(dt * rate))] * mp.F p) ∧
    (∀ p, mp'.volume p = (mp'.F p).det * mp.volume0 p) ∧ mp'.volume0 = mp.volume0 ∧ mp'.mass = mp.mass ∧
    mp'.position = mp.position ∧ mp'.velocity = mp.velocity := by
  unfold Driver.step at h
  have hF : realExpm (-(dt • triaxialL lat rate)) =
      Matrix.diagonal ![Real.exp (-(dt * lat)), Real.exp (-(dt * lat)), Real.exp (-(dt * rate))] := by
    have : -(dt • triaxialL lat rate) = Matrix.diagonal ![-(dt * lat), -(dt * lat), -(dt * rate)] := by
      ext i j
      fin_cases i <;> fin_cases j <;> simp [triaxialL]
    rw [this, realExpm_diagonal]
    congr 1
    funext i
    fin_cases i <;> rfl
  simp only [reduceCtorEq, if_false, hF] at h
  revert h
  cases hu : d.law.update _ ls dt with
  | error e => intro h; simp [andThen] at h
  | ok r =>
    intro h
    have h1 := Except.ok.inj h
    have h2 := (Prod.mk.inj h1).1
    subst h2
    exact ⟨fun p => rfl, fun p => rfl, rfl, rfl, rfl, rfl⟩

/-- Total axial compression prescribed in steps `0 … m-1` (step 0 is skipped by `start_static`). -/
def Spec.axialStrain (rate dt : ℕ → ℝ) (static : Bool) (m : ℕ) : ℝ :=
  ∑ i ∈ Finset.range m, if static ∧ i = 0 then 0 else rate i * dt i

theorem carry_invariant (t : TriaxialTest ℝ dim LS) (mp : MPState ℝ dim 1) (ls : LS) (m : ℕ) (r : MPState ℝ dim 1 × LS)
    (h : scanCarry (t.stepIdx realExpm grad) (mp, ls) (List.range m) = .ok r) :
    r.1.F 0 2 2 = Real.exp (-(Spec.axialStrain t.axialRate.at t.dt.at t.startStatic m)) * mp.F 0 2 2 ∧
    (t.isUndrained = true → (r.1.F 0).det = (mp.F 0).det ∧
      (mp.volume 0 = (mp.F 0).det * mp.volume0 0 → r.1.volume 0 = mp.volume 0)) ∧
    r.1.volume0 = mp.volume0 ∧ r.1.mass = mp.mass := by
  induction m generalizing r with
  | zero =>
    have : (mp, ls) = r := Except.ok.inj h
    subst this
    exact ⟨by simp [Spec.axialStrain], fun _ => ⟨rfl, fun _ => rfl⟩, rfl, rfl⟩
  | succ m ih =>
    rw [List.range_succ, scanCarry_append] at h
    cases hc : scanCarry (t.stepIdx realExpm grad) (mp, ls) (List.range m) with
    | error e => rw [hc] at h; cases h
    | ok c =>
      obtain ⟨i1, i2, i3, i4⟩ := ih c hc
      rw [hc] at h
      simp only [andThen, scanCarry] at h
      cases hst : t.stepIdx realExpm grad c m with
      | error e => rw [hst] at h; cases h
      | ok r' =>
        rw [hst] at h
        have hrr : r' = r := Except.ok.inj h
        subst hrr
        unfold TriaxialTest.stepIdx at hst
        have hsum : Spec.axialStrain t.axialRate.at t.dt.at t.startStatic (m + 1) =
            Spec.axialStrain t.axialRate.at t.dt.at t.startStatic m +
              (if t.startStatic = true ∧ m = 0 then 0 else t.axialRate.at m * t.dt.at m) :=
          Finset.sum_range_succ _ _
        rw [hsum]
        split_ifs at hst ⊢ with h0
        · have : c = r' := Except.ok.inj hst
          subst this
          exact ⟨by simpa using i1, i2, i3, i4⟩
        · obtain ⟨s1, s2, s3, s4, -, -⟩ := step_ok t.solver c.1 r'.1 c.2 r'.2 _ _ _ hst
          refine ⟨?_, fun hu => ?_, s3.trans i3, s4.trans i4⟩
          · rw [s1 0, Matrix.diagonal_mul, i1]
            simp only [Matrix.cons_val]
            rw [← mul_assoc, ← Real.exp_add]
            congr 2
            ring
          · have hdet : (r'.1.F 0).det = (mp.F 0).det := by
              rw [s1 0, Matrix.det_mul, Matrix.det_diagonal, (i2 hu).1, Fin.prod_univ_three]
              simp only [Matrix.cons_val, TriaxialTest.lateral, hu, if_true]
              rw [← Real.exp_add, ← Real.exp_add]
              have : -(t.dt.at m * (-(1 / 2) * t.axialRate.at m)) + -(t.dt.at m * (-(1 / 2) * t.axialRate.at m)) +
                  -(t.dt.at m * t.axialRate.at m) = 0 := by ring
              rw [this, Real.exp_zero, one_mul]
            refine ⟨hdet, fun hv => ?_⟩
            rw [s2 0, hdet, i3, hv]

/-- **C60**: in an undrained test, with any law and any schedule, every recorded state has the initial determinant of the
deformation gradient, and the initial volume (if that was the volume of the initial deformation gradient). -/
theorem undrained_volume_constant (t : TriaxialTest ℝ dim LS) (hu : t.isUndrained = true) (mp : MPState ℝ dim 1) (ls : LS)
    (tr : List (MPState ℝ dim 1 × LS)) (h : t.run realExpm grad mp ls = .ok tr) (r : MPState ℝ dim 1 × LS) (hr : r ∈ tr) :
    (r.1.F 0).det = (mp.F 0).det ∧
    (mp.volume 0 = (mp.F 0).det * mp.volume0 0 → r.1.volume 0 = mp.volume 0) := by
  simp only [TriaxialTest.run] at h
  split_ifs at h
  obtain ⟨k, hk, rfl⟩ := List.getElem_of_mem hr
  obtain ⟨-, h2⟩ := scanRows_index _ _ _ _ _ h
  exact (carry_invariant grad t mp ls _ _ (h2 k hk)).2.1 hu

/-- **C60**: drained or undrained, the axial stretch of entry `k` is the exponential of the prescribed axial compression of
the steps up to `(k+1) * stride`; in other words its axial logarithmic strain is the prescribed one. -/
theorem prescribed_axial_strain (t : TriaxialTest ℝ dim LS) (mp : MPState ℝ dim 1) (ls : LS)
    (tr : List (MPState ℝ dim 1 × LS)) (h : t.run realExpm grad mp ls = .ok tr) (k : ℕ) (hk : k < tr.length)
    (hF : mp.F 0 2 2 ≠ 0) :
    -Real.log (tr[k].1.F 0 2 2 / mp.F 0 2 2) =
      Spec.axialStrain t.axialRate.at t.dt.at t.startStatic ((k + 1) * t.stride) := by
  simp only [TriaxialTest.run] at h
  split_ifs at h
  obtain ⟨-, h2⟩ := scanRows_index _ _ _ _ _ h
  rw [(carry_invariant grad t mp ls _ _ (h2 k hk)).1, mul_div_assoc, div_self hF, mul_one, Real.log_exp, neg_neg]

/-- **C60**: the velocity gradient that a law of the package is given, and that is recorded, has the prescribed axial rate,
equal lateral rates and no shear. -/
theorem recorded_rates (law : Law ℝ dim (LawState ℝ)) (hlaw : LibLaw law) (d : Driver ℝ dim (LawState ℝ))
    (hd : d.law = law) (mp mp' : MPState ℝ dim 1) (ls ls' : LawState ℝ) (lat rate dt : ℝ)
    (h : d.step realExpm mp ls (triaxialL lat rate) dt = .ok (mp', ls')) :
    mp'.L 0 0 0 = lat ∧ mp'.L 0 1 1 = lat ∧ mp'.L 0 2 2 = rate ∧ ∀ i j, i ≠ j → mp'.L 0 i j = 0 := by
  have key : mp'.L 0 = triaxialL lat rate := by
    unfold Driver.step at h
    simp only [reduceCtorEq, if_false] at h
    rw [hd] at h
    have hup : ∀ (s s' : MPState ℝ dim 1) (l l' : LawState ℝ), law.update s l dt = .ok (s', l') → s'.L = s.L := by
      intro s s' l l' hu
      cases hlaw with
      | elastic E nu reset =>
        have := (Prod.mk.inj (Except.ok.inj hu)).1
        subst this; rfl
      | fluid fn pr reset =>
        simp only [fluidLaw] at hu
        split at hu
        · split_ifs at hu
          have := (Prod.mk.inj (Except.ok.inj hu)).1
          subst this; rfl
        · cases hu
      | muI fn pr reset =>
        simp only [muILaw] at hu
        split at hu
        · split_ifs at hu
          have := (Prod.mk.inj (Except.ok.inj hu)).1
          subst this; rfl
        · cases hu
      | dp fn pr reset =>
        simp only [dpLaw] at hu
        split at hu
        · have := (Prod.mk.inj (Except.ok.inj hu)).1
          subst this; rfl
        · cases hu
      | mcc fn ops pr reset =>
        simp only [mccLaw] at hu
        split at hu
        · have := (Prod.mk.inj (Except.ok.inj hu)).1
          subst this; rfl
        · cases hu
        · cases hu
    revert h
    cases hu : law.update _ ls dt with
    | error e => intro h; simp [andThen] at h
    | ok r =>
      intro h
      have h2 := (Prod.mk.inj (Except.ok.inj h)).1
      subst h2
      exact congrFun (hup _ _ _ _ hu) 0
  rw [key]
  refine ⟨rfl, rfl, rfl, fun i j hij => Matrix.diagonal_apply_ne _ hij⟩

/-! ### C69: reported strains -/

theorem everyNth_get (s : ℕ) (hs : 0 < s) (l : List ℝ) (k : ℕ) (hk : k * s < l.length) :
    (everyNth s l)[k]? = some (l[k * s]) := by
  have hn : k < (l.length + s - 1) / s := by
    rw [Nat.lt_iff_add_one_le, Nat.le_div_iff_mul_le hs, Nat.add_mul, Nat.one_mul]
    omega
  simp only [everyNth, List.getElem?_map, List.getElem?_range hn, Option.map_some, List.getD_eq_getElem _ _ hk]

theorem cumsum_get (l : List ℝ) (k : ℕ) (hk : k < (cumsum l).length) : (cumsum l)[k] = (l.take (k + 1)).sum := by
  simp [cumsum]

theorem sum_take (l : List ℝ) (m : ℕ) (hm : m ≤ l.length) : (l.take m).sum = ∑ i ∈ Finset.range m, l.getD i 0 := by
  induction m with
  | zero => simp
  | succ m ih =>
    rw [Finset.sum_range_succ, ← ih (by omega), List.take_add_one, List.sum_append,
      List.getElem?_eq_getElem (by omega), List.getD_eq_getElem _ _ (by omega)]
    simp

/-- The increments of a test with array input. -/
theorem increments_get (t : TriaxialTest ℝ dim LS) (d : List ℝ) (hd : t.dt = .array d)
    (hr : (∃ r, t.axialRate = .scalar r) ∨ ∃ r, t.axialRate = .array r ∧ r.length = d.length) :
    ∃ l : List ℝ, l.length = d.length ∧ t.axialStrain = some (everyNth t.stride (cumsum l)) ∧
      ∀ i < d.length, l.getD i 0 = t.axialRate.at i * t.dt.at i := by
  rcases hr with ⟨r, hr⟩ | ⟨r, hr, hl⟩
  · refine ⟨d.map (r * ·), by simp, by simp [TriaxialTest.axialStrain, hr, hd], fun i hi => ?_⟩
    rw [hr, hd]
    simp only [Sched.at, min_eq_left (by omega : i ≤ d.length - 1)]
    rw [List.getD_eq_getElem _ _ (by simpa using hi), List.getD_eq_getElem _ _ hi, List.getElem_map]
  · refine ⟨List.zipWith (· * ·) r d, by simp [hl], by simp [TriaxialTest.axialStrain, hr, hd, hl], fun i hi => ?_⟩
    rw [hr, hd]
    simp only [Sched.at, min_eq_left (by omega : i ≤ d.length - 1), min_eq_left (by omega : i ≤ r.length - 1)]
    rw [List.getD_eq_getElem _ _ (by simp; omega), List.getD_eq_getElem _ _ hi, List.getD_eq_getElem _ _ (by omega),
      List.getElem_zipWith]

/-- **C69** (partial): with array time steps, stride 1 and no static start, entry `k` of the reported strains is the axial
logarithmic strain of entry `k` of the trajectory. -/
theorem reported_strain_partial (t : TriaxialTest ℝ dim LS) (d : List ℝ) (hd : t.dt = .array d)
    (hr : (∃ r, t.axialRate = .scalar r) ∨ ∃ r, t.axialRate = .array r ∧ r.length = d.length)
    (hs : t.stride = 1) (hst : t.startStatic = false) (mp : MPState ℝ dim 1) (ls : LS)
    (tr : List (MPState ℝ dim 1 × LS)) (h : t.run realExpm grad mp ls = .ok tr) (hF : mp.F 0 2 2 ≠ 0) (k : ℕ)
    (hk : k < tr.length) (hkd : k < d.length) :
    ∃ ε, t.axialStrain = some ε ∧ ε[k]? = some (-Real.log (tr[k].1.F 0 2 2 / mp.F 0 2 2)) := by
  obtain ⟨l, hl, h1, h2⟩ := increments_get t d hd hr
  refine ⟨_, h1, ?_⟩
  have hlen : k * t.stride < (cumsum l).length := by simp [cumsum, hs, hl, hkd]
  rw [everyNth_get _ (by omega) _ _ hlen, prescribed_axial_strain grad t mp ls tr h k hk hF, cumsum_get,
    sum_take _ _ (by rw [hs]; omega)]
  congr 1
  rw [hs, Nat.mul_one, Nat.mul_one, Spec.axialStrain]
  refine Finset.sum_congr rfl fun i hi => ?_
  rw [hst, if_neg (by simp), h2 i (by have := Finset.mem_range.mp hi; omega)]

/-- **C69** (refuted, scalar input): the first reported strain is 0, while the first recorded state has already been
compressed by `stride * rate * dt`. -/
theorem reported_strain_scalar_wrong (t : TriaxialTest ℝ dim LS) (r d : ℝ) (hr : t.axialRate = .scalar r)
    (hd : t.dt = .scalar d) (hrd : r * d ≠ 0) (hst : t.startStatic = false) (mp : MPState ℝ dim 1) (ls : LS)
    (tr : List (MPState ℝ dim 1 × LS)) (h : t.run realExpm grad mp ls = .ok tr) (hF : mp.F 0 2 2 ≠ 0)
    (hk : 0 < tr.length) (hs : 0 < t.stride) (hN : 0 < t.numSteps) :
    ∃ ε, t.axialStrain = some ε ∧ ε[0]? = some 0 ∧
      -Real.log (tr[0].1.F 0 2 2 / mp.F 0 2 2) = t.stride * (r * d) ∧ t.stride * (r * d) ≠ 0 := by
  refine ⟨everyNth t.stride (linspace0 (r * d * t.numSteps) t.numSteps), by simp [TriaxialTest.axialStrain, hr, hd], ?_, ?_,
    mul_ne_zero (by exact_mod_cast hs.ne') hrd⟩
  · rw [everyNth_get _ hs _ _ (by simpa [linspace0] using hN)]
    simp [linspace0]
  · rw [prescribed_axial_strain grad t mp ls tr h 0 hk hF, Spec.axialStrain]
    simp [hr, hd, Sched.at, hst]

/-- **C69** (refuted, array input with a stride): with positive increments the first reported strain is smaller than the
strain of the first recorded state for every stride of two or more. -/
theorem reported_strain_stride_wrong (t : TriaxialTest ℝ dim LS) (d : List ℝ) (hd : t.dt = .array d)
    (hr : (∃ r, t.axialRate = .scalar r) ∨ ∃ r, t.axialRate = .array r ∧ r.length = d.length)
    (hpos : ∀ i, 0 < t.axialRate.at i * t.dt.at i)
    (hs : 2 ≤ t.stride) (hst : t.startStatic = false) (mp : MPState ℝ dim 1) (ls : LS)
    (tr : List (MPState ℝ dim 1 × LS)) (h : t.run realExpm grad mp ls = .ok tr) (hF : mp.F 0 2 2 ≠ 0)
    (hk : 0 < tr.length) (hkd : 0 < d.length) :
    ∃ ε e, t.axialStrain = some ε ∧ ε[0]? = some e ∧ e < -Real.log (tr[0].1.F 0 2 2 / mp.F 0 2 2) := by
  obtain ⟨l, hl, h1, h2⟩ := increments_get t d hd hr
  have hlen : 0 * t.stride < (cumsum l).length := by simp [cumsum, hl, hkd]
  refine ⟨_, _, h1, everyNth_get _ (by omega) _ _ hlen, ?_⟩
  rw [prescribed_axial_strain grad t mp ls tr h 0 hk hF, cumsum_get, sum_take _ _ (by omega), Spec.axialStrain]
  simp only [Nat.zero_mul, Nat.zero_add, Finset.sum_range_one, Nat.one_mul, hst]
  rw [h2 0 hkd]
  have hle : ({0, 1} : Finset ℕ) ⊆ Finset.range t.stride := by
    intro i hi
    simp only [Finset.mem_insert, Finset.mem_singleton] at hi
    exact Finset.mem_range.mpr (by omega)
  have := Finset.sum_le_sum_of_subset_of_nonneg hle (f := fun i => t.axialRate.at i * t.dt.at i)
    fun i _ _ => (hpos i).le
  rw [Finset.sum_pair (by norm_num)] at this
  simp only [Bool.false_eq_true, false_and, if_false]
  linarith [hpos 1]

/-! ### C71: the linear update -/

/-- **C71** (partial): called with `is_F_linear_approx=True`, a step uses the linear update. -/
theorem linear_update_partial (d : Driver ℝ dim LS) (mp mp' : MPState ℝ dim 1) (ls ls' : LS) (L : Mat3 ℝ) (dt : ℝ)
    (h : d.step realExpm mp ls L dt (some true) = .ok (mp', ls')) (p : Fin 1) : mp'.F p = (1 - dt • L) * mp.F p := by
  unfold Driver.step at h
  simp only [if_true] at h
  revert h
  cases hu : d.law.update _ ls dt with
  | error e => intro h; simp [andThen] at h
  | ok r =>
    intro h
    have h2 := (Prod.mk.inj (Except.ok.inj h)).1
    subst h2
    rfl

/-- **C71** (refuted): a driver constructed with `is_F_linear_approx=True` does not use the linear update: under uniaxial
compression its axial stretch after one step is `exp (-rate dt)`, which differs from `1 - rate dt`. -/
theorem linear_flag_ignored (law : Law ℝ dim LS) (mp mp' : MPState ℝ dim 1) (ls ls' : LS) (lat rate dt : ℝ)
    (hrd : rate * dt ≠ 0) (hF : mp.F 0 2 2 ≠ 0)
    (h : Driver.step realExpm { law := law, isFLinearApprox := true } mp ls (triaxialL lat rate) dt = .ok (mp', ls')) :
    mp'.F 0 2 2 ≠ ((1 - dt • triaxialL lat rate) * mp.F 0) 2 2 := by
  rw [(step_ok _ mp mp' ls ls' lat rate dt h).1 0, Matrix.diagonal_mul]
  have e1 : (1 - dt • triaxialL lat rate : Mat3 ℝ) = Matrix.diagonal ![1 - dt * lat, 1 - dt * lat, 1 - dt * rate] := by
    ext i j
    fin_cases i <;> fin_cases j <;> simp [triaxialL]
  rw [e1, Matrix.diagonal_mul]
  simp only [Matrix.cons_val]
  intro he
  have := mul_right_cancel₀ hF he
  have h2 := Real.add_one_lt_exp (x := -(dt * rate)) (by rw [neg_ne_zero, mul_comm]; exact hrd)
  linarith

/-! ### Example -/

/-- An undrained test of a linear elastic point: 4 steps, stride 2. -/
noncomputable def exTriaxial : TriaxialTest ℝ 3 (LawState ℝ) :=
  { solver := { law := elasticLaw 1000 (1 / 4) false }
    confine := 0
    axialRate := .array [1, 2, 3, 4]
    dt := .array [1, 1, 1, 1]
    isUndrained := true
    stride := 2 }

example (mp : MPState ℝ 3 1) : ∃ tr, exTriaxial.run realExpm grad mp (.elastic fun _ => 0) = .ok tr ∧ tr.length = 2 ∧
    ∀ r ∈ tr, (r.1.F 0).det = (mp.F 0).det := by
  have h : ∃ tr, exTriaxial.run realExpm grad mp (.elastic fun _ => 0) = .ok tr ∧ tr.length = 2 := ⟨_, rfl, rfl⟩
  obtain ⟨tr, h1, h2⟩ := h
  exact ⟨tr, h1, h2, fun r hr => (undrained_volume_constant grad exTriaxial rfl mp _ tr h1 r hr).1⟩

end
end Hydrax
