import Verif.Props.ElementTest
import Verif.Model.LawTable
import Verif.Model.Uepi
import Verif.Lemmas.RealFns
import Verif.Lemmas.Tensor
import Mathlib.Analysis.Calculus.Deriv.Mul
import Mathlib.Analysis.Calculus.Deriv.Comp
import Mathlib.Analysis.Calculus.Deriv.Shift

/-!
# The response to the speed of deformation (C150)
-/

namespace Hydrax
open Spec

section
variable {K : Type*} [Field K] {dim n : ℕ}

/-- The same points, deforming `c` times as fast. -/
def Spec.faster (c : K) (s : MPState K dim n) : MPState K dim n := { s with L := fun p => c • s.L p }

/-- A law without internal time: points that deform `c` times as fast for a `c`-th of the time end with the same stress and the same state. -/
def Spec.RateFree {LS : Type*} (law : Law K dim LS) : Prop :=
  ∀ {n : ℕ} (s : MPState K dim n) (ls : LS) (dt c : K), c ≠ 0 →
    law.update (faster c s) ls (dt / c) = andThen (law.update s ls dt) fun r => .ok (faster c r.1, r.2)

/-- The test `t'` is the test `t` at `c` times the rate in steps of a `c`-th of the length. -/
structure Spec.FasterTest {LS : Type*} (c : K) (t t' : TriaxialTest K dim LS) : Prop where
  solver : t'.solver = t.solver
  confine : t'.confine = t.confine
  undrained : t'.isUndrained = t.isUndrained
  pConstant : t'.isPConstant = t.isPConstant
  newton : t'.numNewton = t.numNewton
  stride : t'.stride = t.stride
  static : t'.startStatic = t.startStatic
  steps : t'.steps = t.steps
  rate : ∀ i, t'.axialRate.at i = c * t.axialRate.at i
  dt : ∀ i, t'.dt.at i = t.dt.at i / c

/-- An operator that obeys the chain rule for a change of units, as every derivative does. -/
def Spec.UnitGrad (grad : (K → K) → K → K) : Prop := ∀ (f : K → K) (c y : K), c ≠ 0 → grad (fun x => f (x / c)) (c * y) = grad f y / c

theorem sym_rate (L : Mat3 K) {dt c : K} (hc : c ≠ 0) : (dt / c) • symTensor (c • L) = dt • symTensor L := by
  ext i j
  simp only [symTensor, Matrix.smul_apply, Matrix.add_apply, Matrix.transpose_apply, smul_eq_mul]
  field_simp

theorem jaumann_rate (T L : Mat3 K) {dt c : K} (hc : c ≠ 0) : jaumann T (spinTensor (c • L)) (dt / c) = jaumann T (spinTensor L) dt := by
  have h : spinTensor (c • L) = c • spinTensor L := by
    ext i j
    simp only [spinTensor, Matrix.smul_apply, Matrix.sub_apply, Matrix.transpose_apply, smul_eq_mul]
    ring
  rw [jaumann, jaumann, h, smul_mul_assoc, mul_smul_comm, ← smul_sub, smul_smul, div_mul_cancel₀ _ hc]

theorem elasticStress_rate (E nu : K) (L σ : Mat3 K) {dt c : K} (hc : c ≠ 0) :
    elasticStress E nu (c • L) σ (dt / c) = elasticStress E nu L σ dt := by
  have h : (dt / c) • ((1 / 2 : K) • (c • L + (c • L).transpose)) = dt • ((1 / 2 : K) • (L + L.transpose)) := sym_rate L hc
  simp only [elasticStress, h]

variable [LinearOrder K]

theorem dpUpdate_rate (fn : MathFns K) (pr : DPParams K) (L e : Mat3 K) (b p0 rho : K) {dt c : K} (hc : c ≠ 0) :
    dpUpdate fn pr (c • L) e b p0 rho (dt / c) = dpUpdate fn pr L e b p0 rho dt := by
  have h : dpTrial fn pr (c • L) e b p0 (dt / c) = dpTrial fn pr L e b p0 dt := by
    simp only [dpTrial, sym_rate L hc, jaumann_rate e L hc]
  simp only [dpUpdate, h]

theorem mccUpdate_rate (fn : MathFns K) (ops : NewtonOps K) (pr : MCCParams K) (L e σ : Mat3 K) (pc : K) (σref : Mat3 K) (v : K) {dt c : K}
    (hc : c ≠ 0) : mccUpdate fn ops pr (c • L) e σ pc σref v (dt / c) = mccUpdate fn ops pr L e σ pc σref v dt := by
  have h : mccTrial fn pr (c • L) e σ pc σref (dt / c) = mccTrial fn pr L e σ pc σref dt := by
    simp only [mccTrial, sym_rate L hc, jaumann_rate _ L hc]
  simp only [mccUpdate, h]

/-- **C150**: the laws for solids have no internal time: linear elasticity, Drucker-Prager and Cam-Clay. -/
theorem solids_rate_free (fn : MathFns K) (ops : NewtonOps K) (reset : Bool) :
    (∀ E nu, RateFree (elasticLaw (K := K) (dim := dim) E nu reset)) ∧ (∀ pr, RateFree (dpLaw (dim := dim) fn pr reset)) ∧
      ∀ pr, RateFree (mccLaw (dim := dim) fn ops pr reset) := by
  refine ⟨fun E nu n s ls dt c hc => ?_, fun pr n s ls dt c hc => ?_, fun pr n s ls dt c hc => ?_⟩
  · simp only [elasticLaw, faster, elasticStress_rate E nu _ _ hc, andThen]
  · rcases ls with _ | _ | ⟨e, b, p0⟩ | _
    case dp =>
      have h : ∀ p, dpUpdate fn pr (c • s.L p) (e p.val) (b p.val) (p0 p.val) ((faster c s).density p) (dt / c) =
          dpUpdate fn pr (s.L p) (e p.val) (b p.val) (p0 p.val) (s.density p) dt := fun p => dpUpdate_rate fn pr _ _ _ _ _ hc
      simp only [dpLaw, andThen]
      change Except.ok (({ faster c s with stress := fun p => (dpUpdate fn pr (c • s.L p) _ _ _ _ _).stress } : MPState K dim n),
        LawState.dp (ofFin 0 fun p => (dpUpdate fn pr (c • s.L p) _ _ _ _ _).epsE) (ofFin 0 fun p => (dpUpdate fn pr (c • s.L p) _ _ _ _ _).epsP) p0) = _
      simp only [h]
      rfl
    all_goals rfl
  · rcases ls with _ | _ | _ | ⟨pc, _ | ref, e⟩
    case mcc.some =>
      have h : ∀ p, mccUpdate fn ops pr (c • s.L p) (e p.val) ((faster c s).stress p) (pc p.val) (ref p.val) (pr.rhoP / (faster c s).density p) (dt / c) =
          mccUpdate fn ops pr (s.L p) (e p.val) (s.stress p) (pc p.val) (ref p.val) (pr.rhoP / s.density p) dt :=
        fun p => mccUpdate_rate fn ops pr _ _ _ _ _ _ hc
      simp only [mccLaw, andThen]
      change Except.ok (({ faster c s with stress := fun p => (mccUpdate fn ops pr (c • s.L p) _ _ _ _ _ _).stress } : MPState K dim n),
        LawState.mcc (ofFin 0 fun p => (mccUpdate fn ops pr (c • s.L p) _ _ _ _ _ _).pc) (some ref)
          (ofFin 0 fun p => (mccUpdate fn ops pr (c • s.L p) _ _ _ _ _ _).epsE)) = _
      simp only [h]
      rfl
    all_goals rfl

end

section
variable {K : Type*} [Field K] [DecidableEq K] {dim : ℕ} {LS : Type*}

omit [DecidableEq K] in
theorem driver_rate (expm : Mat3 K → Mat3 K) (d : Driver K dim LS) (hd : RateFree d.law) (mp : MPState K dim 1) (ls : LS) (L : Mat3 K)
    {dt c : K} (hc : c ≠ 0) : d.step expm (faster c mp) ls (c • L) (dt / c) = andThen (d.step expm mp ls L dt) fun r => .ok (faster c r.1, r.2) := by
  have h : (dt / c) • (c • L) = dt • L := by rw [smul_smul, div_mul_cancel₀ _ hc]
  have h2 := hd ({ mp with L := fun _ => L, F := fun p => expm (-(dt • L)) * mp.F p } : MPState K dim 1) ls dt c hc
  simp only [faster] at h2
  simp only [Driver.step, reduceCtorEq, if_false, h, faster, h2]
  cases d.law.update ({ mp with L := fun _ => L, F := fun p => expm (-(dt • L)) * mp.F p } : MPState K dim 1) ls dt <;> rfl

omit [DecidableEq K] in
theorem triaxialL_rate (x r : K) {c : K} (hc : c ≠ 0) : triaxialL x (c * r) = c • triaxialL (x / c) r := by
  rw [triaxialL, triaxialL, ← Matrix.diagonal_smul]
  congr 1
  funext i
  fin_cases i <;> simp [mul_div_cancel₀, hc]

theorem residual_rate (expm : Mat3 K → Mat3 K) {t t' : TriaxialTest K dim LS} {c : K} (hc : c ≠ 0) (ht : FasterTest c t t') (hl : RateFree t.solver.law)
    (mp : MPState K dim 1) (ls : LS) (r dt x : K) :
    t'.residual expm (faster c mp) ls (c * r) (dt / c) x = t.residual expm mp ls r dt (x / c) := by
  unfold TriaxialTest.residual
  rw [triaxialL_rate x r hc, ht.solver, driver_rate expm t.solver hl mp ls _ hc, ht.pConstant, ht.confine]
  cases t.solver.step expm mp ls (triaxialL (x / c) r) dt <;> rfl

theorem newton_rate {grad : (K → K) → K → K} (hg : UnitGrad grad) (f : K → K) {c : K} (hc : c ≠ 0) (k : ℕ) :
    newtonIterate grad (fun x => f (x / c)) k = c * newtonIterate grad f k := by
  induction k with
  | zero => simp [newtonIterate]
  | succ k ih =>
    simp only [newtonIterate, ih, hg f c _ hc]
    by_cases h : grad f (newtonIterate grad f k) = 0
    · simp [h]
    · rw [if_neg (div_ne_zero h hc), if_neg h, mul_div_cancel_left₀ _ hc]
      field_simp

theorem lateral_rate (expm : Mat3 K → Mat3 K) {grad : (K → K) → K → K} (hg : UnitGrad grad) {t t' : TriaxialTest K dim LS} {c : K} (hc : c ≠ 0)
    (ht : FasterTest c t t') (hl : RateFree t.solver.law) (mp : MPState K dim 1) (ls : LS) (r dt : K) :
    t'.lateral expm grad (faster c mp) ls (c * r) (dt / c) = c * t.lateral expm grad mp ls r dt := by
  unfold TriaxialTest.lateral
  have h : t'.residual expm (faster c mp) ls (c * r) (dt / c) = fun x => t.residual expm mp ls r dt (x / c) :=
    funext fun x => residual_rate expm hc ht hl mp ls r dt x
  rw [h, newton_rate hg _ hc, ht.undrained, ht.newton]
  split_ifs
  · ring
  · rfl

theorem stepIdx_rate (expm : Mat3 K → Mat3 K) {grad : (K → K) → K → K} (hg : UnitGrad grad) {t t' : TriaxialTest K dim LS} {c : K} (hc : c ≠ 0)
    (ht : FasterTest c t t') (hl : RateFree t.solver.law) (x : MPState K dim 1 × LS) (i : ℕ) :
    t'.stepIdx expm grad (faster c x.1, x.2) i = andThen (t.stepIdx expm grad x i) fun r => .ok (faster c r.1, r.2) := by
  unfold TriaxialTest.stepIdx
  rw [ht.static]
  split_ifs
  · rfl
  · simp only [ht.rate, ht.dt, lateral_rate expm hg hc ht hl]
    rw [triaxialL_rate _ _ hc, mul_div_cancel_left₀ _ hc, ht.solver]
    exact driver_rate expm t.solver hl x.1 x.2 _ hc

theorem scanCarry_image {St : Type*} (F : St → St) (f g : St → ℕ → Except PyErr St) (h : ∀ s i, g (F s) i = andThen (f s i) fun r => .ok (F r))
    (l : List ℕ) (s : St) : scanCarry g (F s) l = andThen (scanCarry f s l) fun r => .ok (F r) := by
  induction l generalizing s with
  | nil => rfl
  | cons i l ih =>
    simp only [scanCarry, h]
    cases f s i with
    | error e => rfl
    | ok s' => exact ih s'

theorem scanRows_image {St : Type*} (F : St → St) (f g : St → ℕ → Except PyErr St) (h : ∀ s i, g (F s) i = andThen (f s i) fun r => .ok (F r))
    (rows : List (List ℕ)) (s : St) : scanRows g (F s) rows = andThen (scanRows f s rows) fun tr => .ok (tr.map F) := by
  induction rows generalizing s with
  | nil => rfl
  | cons r rs ih =>
    simp only [scanRows, scanCarry_image F f g h]
    cases scanCarry f s r with
    | error e => rfl
    | ok s' =>
      simp only [andThen, ih]
      cases scanRows f s' rs <;> rfl

/-- **C150**: an element test of a law without internal time, drained or undrained, gives the same recorded states (and the same exception) at
every speed; only the recorded velocity gradients are faster. -/
theorem test_rate_free (expm : Mat3 K → Mat3 K) {grad : (K → K) → K → K} (hg : UnitGrad grad) {t t' : TriaxialTest K dim LS} {c : K} (hc : c ≠ 0)
    (ht : FasterTest c t t') (hl : RateFree t.solver.law) (mp : MPState K dim 1) (ls : LS) :
    t'.run expm grad (faster c mp) ls = andThen (t.run expm grad mp ls) fun tr => .ok (tr.map fun r => (faster c r.1, r.2)) := by
  unfold TriaxialTest.run
  rw [ht.stride, ht.steps]
  split_ifs
  · rfl
  · simp only
    split_ifs
    · rfl
    · exact scanRows_image (fun r => (faster c r.1, r.2)) _ _ (stepIdx_rate expm hg hc ht hl) _ (mp, ls)

end

/-- The derivative obeys the chain rule for a change of units. -/
theorem deriv_unit : UnitGrad (deriv : (ℝ → ℝ) → ℝ → ℝ) := fun f c y hc => by
  have h : (fun x => f (x / c)) = fun x => f (c⁻¹ * x) := funext fun x => by rw [div_eq_inv_mul]
  rw [h, deriv_comp_mul_left, inv_mul_cancel_left₀ hc, smul_eq_mul, div_eq_inv_mul]

/-! ### Laws with an internal time -/

section
variable {K : Type*} [Field K] [LinearOrder K]

/-- **C150**: the fluid answers to the rate through its viscosity only: `c` times as fast is `c` times as viscous. -/
theorem fluid_rate (fn : MathFns K) (pr : FluidParams K) (L : Mat3 K) (m v r c : K) :
    fluidStress fn pr (c • L) m v r = fluidStress fn { pr with viscosity := pr.viscosity * c } L m v r := by
  ext i j
  simp only [fluidStress, fluidPressure, Matrix.add_apply, Matrix.sub_apply, Matrix.smul_apply, Matrix.transpose_apply, smul_eq_mul,
    Matrix.trace_smul, ← smul_add, Matrix.transpose_smul]
  ring

/-- **C150**: the elasto-plastic-inertial law answers to the rate through the inertial number only: `c` times as fast, for a `c`-th of the
time, is as if the grains were `c` times as large. -/
theorem uepi_rate (fn : MathFns K) (ops : NewtonOps K) (pr : UepiParams K) (σref L : Mat3 K) (st : UepiState K) {dt c : K} (hc : c ≠ 0) :
    uepiUpdate fn ops pr σref (c • L) (dt / c) st = uepiUpdate fn ops { pr with d := c * pr.d } σref L dt st := by
  have h : uepiTrial fn pr (c • L) st σref (dt / c) = uepiTrial fn { pr with d := c * pr.d } L st σref dt := by
    simp only [uepiTrial, sym_rate L hc, jaumann_rate _ L hc]
  have hI : ∀ p x : K, uIp fn p (x / (dt / c)) pr.d pr.rhoP = uIp fn p (x / dt) (c * pr.d) pr.rhoP := fun p x => by
    rw [uIp, uIp, div_div_eq_mul_div, mul_div_right_comm, mul_assoc (x / dt)]
  have hR : ∀ t x, uepiResiduals fn pr t st (dt / c) x = uepiResiduals fn { pr with d := c * pr.d } t st dt x := fun t x => by
    simp only [uepiResiduals, hI]
  simp only [uepiUpdate, h, uepiPlastic, uepiFinal, hR]

end

/-- **C150**: the mu(I) law answers to the rate through the inertial number and the regularisation only: `c` times as fast is as if the grains
were `c` times as large and the regularising rate `c` times as small. -/
theorem muI_rate (pr : MuIParams ℝ) (L : Mat3 ℝ) (m v r : ℝ) {c : ℝ} (hc : 0 < c) :
    muIStress realFns pr (c • L) m v r = muIStress realFns { pr with dP := c * pr.dP, alpha := pr.alpha / c } L m v r := by
  have hdev : ∀ M : Mat3 ℝ, (1 / 2 : ℝ) • (c • M + (c • M).transpose) - (((1 / 2 : ℝ) • (c • M + (c • M).transpose)).trace / 3) • (1 : Mat3 ℝ) =
      c • ((1 / 2 : ℝ) • (M + M.transpose) - (((1 / 2 : ℝ) • (M + M.transpose)).trace / 3) • (1 : Mat3 ℝ)) := fun M => by
    ext i j
    simp only [Matrix.add_apply, Matrix.sub_apply, Matrix.smul_apply, Matrix.transpose_apply, smul_eq_mul, Matrix.trace_smul, ← smul_add,
      Matrix.transpose_smul]
    ring
  have hgd : ∀ D : Mat3 ℝ, shearRate realFns (c • D) = c * shearRate realFns D := fun D => by
    have : 2 * dcontr (c • D) (c • D) = c ^ 2 * (2 * dcontr D D) := by
      simp only [dcontr, Matrix.smul_apply, smul_eq_mul, Fin.sum_univ_three]
      ring
    simp only [shearRate, realFns, this]
    rw [Real.sqrt_mul (sq_nonneg c), Real.sqrt_sq hc.le]
  have hvis : ∀ p g : ℝ, muIViscosity realFns pr p (c * g) * c = muIViscosity realFns { pr with dP := c * pr.dP, alpha := pr.alpha / c } p g := fun p g => by
    have h1 : Real.sqrt ((c * g) ^ 2 + pr.alpha ^ 2) = c * Real.sqrt (g ^ 2 + (pr.alpha / c) ^ 2) := by
      rw [← Real.sqrt_sq hc.le, ← Real.sqrt_mul (sq_nonneg _), Real.sqrt_sq hc.le]
      congr 1
      field_simp
    simp only [muIViscosity, realFns, h1, add_mul]
    congr 1
    · rw [← div_div, div_right_comm, div_mul_cancel₀ _ hc.ne']
    · rw [div_mul_eq_mul_div, mul_left_comm pr.dP, ← mul_assoc c]
      ring
  unfold muIStress
  simp only [hdev, hgd, smul_smul, hvis]

/-- **C150**, refuted for a viscous fluid: a flow that is not a pure change of volume gives another stress at another speed. -/
theorem fluid_feels_rate {K : Type*} [Field K] [LinearOrder K] [IsStrictOrderedRing K] (fn : MathFns K) (pr : FluidParams K) (hv : pr.viscosity ≠ 0)
    (L : Mat3 K) (hL : ∃ i j, i ≠ j ∧ L i j + L j i ≠ 0) (m v r : K) {c : K} (hc : c ≠ 1) : fluidStress fn pr (c • L) m v r ≠ fluidStress fn pr L m v r := by
  obtain ⟨i, j, hij, hL⟩ := hL
  intro h
  have h1 := congrFun (congrFun h i) j
  simp only [fluidStress, Matrix.add_apply, Matrix.sub_apply, Matrix.smul_apply, Matrix.transpose_apply, smul_eq_mul, Matrix.one_apply, if_neg hij,
    isoT_apply, mul_zero, sub_zero, zero_add] at h1
  have h2 : pr.viscosity * (c - 1) * (L i j + L j i) = 0 := by linear_combination h1
  exact mul_ne_zero (mul_ne_zero hv (sub_ne_zero.2 hc)) hL h2

/-! ### Examples -/

/-- A test of linear elastic material in three steps. -/
noncomputable def exSlowTest (c : ℝ) : TriaxialTest ℝ 3 (LawState ℝ) :=
  { solver := { law := elasticLaw 1000 (1 / 4) false }, confine := 5, axialRate := .scalar (c * 1), dt := .scalar (1 / 10 / c), numSteps := 3 }

/-- Ten times as fast. -/
theorem exSlow_faster : FasterTest 10 (exSlowTest 1) (exSlowTest 10) where
  solver := rfl
  confine := rfl
  undrained := rfl
  pConstant := rfl
  newton := rfl
  stride := rfl
  static := rfl
  steps := rfl
  rate := fun i => by simp [exSlowTest, Sched.at]
  dt := fun i => by simp [exSlowTest, Sched.at]

example (mp : MPState ℝ 3 1) (ls : LawState ℝ) : (exSlowTest 10).run realExpm deriv (faster 10 mp) ls =
    andThen ((exSlowTest 1).run realExpm deriv mp ls) fun tr => .ok (tr.map fun r => (faster 10 r.1, r.2)) :=
  test_rate_free realExpm deriv_unit (by norm_num) exSlow_faster ((solids_rate_free realFns ⟨fun _ _ => 0, fun _ => false⟩ false).1 1000 (1 / 4)) mp ls

/-- Water sheared at twice the speed. -/
example (fn : MathFns ℚ) (m v r : ℚ) : fluidStress fn { bulk := 1, viscosity := 1, beta := 7 } ((2 : ℚ) • (fun i j => if i = 0 ∧ j = 1 then 1 else 0)) m v r ≠
    fluidStress fn { bulk := 1, viscosity := 1, beta := 7 } (fun i j => if i = 0 ∧ j = 1 then 1 else 0) m v r :=
  fluid_feels_rate fn _ (by norm_num) _ ⟨0, 1, by decide, by norm_num⟩ m v r (by norm_num)

/-- A mu(I) flow at twice the speed is a flow of grains twice as large. -/
example (L : Mat3 ℝ) (m v r : ℝ) (pr : MuIParams ℝ) : muIStress realFns pr ((2 : ℝ) • L) m v r =
    muIStress realFns { pr with dP := 2 * pr.dP, alpha := pr.alpha / 2 } L m v r := muI_rate pr L m v r two_pos

/-- So is a flow of elasto-plastic-inertial material. -/
example (ops : NewtonOps ℝ) (pr : UepiParams ℝ) (σref L : Mat3 ℝ) (st : UepiState ℝ) :
    uepiUpdate realFns ops pr σref ((2 : ℝ) • L) (1 / 100 / 2) st = uepiUpdate realFns ops { pr with d := 2 * pr.d } σref L (1 / 100) st :=
  uepi_rate _ _ _ _ _ _ two_ne_zero

end Hydrax
