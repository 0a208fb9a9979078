import Verif.Model.Calibration
import Verif.Model.Procedures
import Verif.Props.Scripts
import Verif.Props.CamClay
import Verif.Props.CamClaySolution
import Mathlib.Tactic.LinearCombination
import Mathlib.Analysis.Calculus.Deriv.Basic

/-!
# C144: a calibration determines what it reports
-/

set_option linter.unusedSectionVars false

namespace Hydrax

section
variable {K : Type*} [Field K] [LinearOrder K] [IsStrictOrderedRing K] {dim : ℕ}

/-- The same point with its mass multiplied by `c`. -/
def Spec.reweigh (c : K) {n : ℕ} (s : MPState K dim n) : MPState K dim n := { s with mass := fun p => s.mass p * c }

/-- The same clay with another `N`. -/
def Spec.withN (pr : MCCParams K) (N : K) : MCCParams K := { pr with N := N }

open Spec

theorem mccUpdate_withN (fn : MathFns K) (ops : NewtonOps K) (pr : MCCParams K) {N' : K} (h : 0 < pr.N) (h' : 0 < N')
    (L epsE σ : Mat3 K) (pc : K) (ref : Mat3 K) (v dt : K) :
    mccUpdate fn ops (withN pr N') L epsE σ pc ref (v / (pr.N / N')) dt = mccUpdate fn ops pr L epsE σ pc ref v dt := by
  have e : v / (pr.N / N') ≤ N' * (999999 / 1000000) ↔ v ≤ pr.N * (999999 / 1000000) := by
    rw [div_le_iff₀ (div_pos h h')]
    have : N' * (999999 / 1000000) * (pr.N / N') = pr.N * (999999 / 1000000) := by field_simp
    rw [this]
  have ht : mccTrial fn (withN pr N') L epsE σ pc ref dt = mccTrial fn pr L epsE σ pc ref dt := rfl
  have hp : ∀ t, mccPlastic fn ops (withN pr N') t pc = mccPlastic fn ops pr t pc := fun _ => rfl
  simp only [mccUpdate, ht, hp]
  have e' : v / (pr.N / N') ≤ (withN pr N').N * (999999 / 1000000) ↔ v ≤ pr.N * (999999 / 1000000) := e
  simp only [e']

theorem mccLaw_withN (fn : MathFns K) (ops : NewtonOps K) (pr : MCCParams K) (reset : Bool) {N' : K} (h : 0 < pr.N) (h' : 0 < N') {n : ℕ}
    (s : MPState K dim n) (ls : LawState K) (dt : K) :
    (mccLaw fn ops (withN pr N') reset : Law K dim (LawState K)).update (reweigh (pr.N / N') s) ls dt =
      ((mccLaw fn ops pr reset : Law K dim (LawState K)).update s ls dt).map fun r => (reweigh (pr.N / N') r.1, r.2) := by
  cases ls with
  | mcc pc r e =>
    cases r with
    | none => rfl
    | some r =>
      have hd : ∀ p, (withN pr N').rhoP / (reweigh (pr.N / N') s).density p = pr.rhoP / s.density p / (pr.N / N') := by
        intro p
        simp only [MPState.density, reweigh, withN, mul_div_right_comm, div_mul_eq_div_div]
      simp only [mccLaw, hd, Except.map]
      have hu : ∀ p : Fin n, mccUpdate fn ops (withN pr N') ((reweigh (pr.N / N') s).L p) (e p.val) ((reweigh (pr.N / N') s).stress p) (pc p.val)
          (r p.val) (pr.rhoP / s.density p / (pr.N / N')) dt =
          mccUpdate fn ops pr (s.L p) (e p.val) (s.stress p) (pc p.val) (r p.val) (pr.rhoP / s.density p) dt :=
        fun p => mccUpdate_withN fn ops pr h h' _ _ _ _ _ _ _
      simp only [hu]
      rfl
  | _ => rfl

theorem driver_withN (fn : MathFns K) (ops : NewtonOps K) (expm : Mat3 K → Mat3 K) (pr : MCCParams K) (reset lin : Bool) {N' : K} (h : 0 < pr.N)
    (h' : 0 < N') (mp : MPState K dim 1) (ls : LawState K) (L : Mat3 K) (dt : K) :
    ({ law := mccLaw fn ops (withN pr N') reset, isFLinearApprox := lin } : Driver K dim (LawState K)).step expm (reweigh (pr.N / N') mp) ls L dt =
      (({ law := mccLaw fn ops pr reset, isFLinearApprox := lin } : Driver K dim (LawState K)).step expm mp ls L dt).map
        fun r => (reweigh (pr.N / N') r.1, r.2) := by
  have := mccLaw_withN (dim := dim) fn ops pr reset h h'
    { mp with L := fun _ => L, F := fun p => expm (-(dt • L)) * mp.F p } ls dt
  unfold Driver.step
  simp only [reduceCtorEq, if_false]
  have e : ({ reweigh (pr.N / N') mp with L := fun _ => L, F := fun p => expm (-(dt • L)) * (reweigh (pr.N / N') mp).F p } : MPState K dim 1) =
      reweigh (pr.N / N') { mp with L := fun _ => L, F := fun p => expm (-(dt • L)) * mp.F p } := rfl
  rw [e, this]
  cases (mccLaw fn ops pr reset : Law K dim (LawState K)).update { mp with L := fun _ => L, F := fun p => expm (-(dt • L)) * mp.F p } ls dt <;> rfl

/-- The same test on the same clay with another `N`. -/
def Spec.testN (fn : MathFns K) (ops : NewtonOps K) (pr : MCCParams K) (reset : Bool) (t : TriaxialTest K dim (LawState K)) :
    TriaxialTest K dim (LawState K) :=
  { t with solver := { law := mccLaw fn ops pr reset, isFLinearApprox := t.solver.isFLinearApprox } }

theorem stepIdx_withN (fn : MathFns K) (ops : NewtonOps K) (expm : Mat3 K → Mat3 K) (grad : (K → K) → K → K) (pr : MCCParams K) (reset : Bool)
    (t : TriaxialTest K dim (LawState K)) {N' : K} (h : 0 < pr.N) (h' : 0 < N') (c : MPState K dim 1 × LawState K) (idx : ℕ) :
    (testN fn ops (withN pr N') reset t).stepIdx expm grad (reweigh (pr.N / N') c.1, c.2) idx =
      ((testN fn ops pr reset t).stepIdx expm grad c idx).map fun r => (reweigh (pr.N / N') r.1, r.2) := by
  unfold TriaxialTest.stepIdx
  by_cases hst : t.startStatic = true ∧ idx = 0
  · rw [if_pos (show (testN fn ops (withN pr N') reset t).startStatic = true ∧ idx = 0 from hst),
      if_pos (show (testN fn ops pr reset t).startStatic = true ∧ idx = 0 from hst)]
    rfl
  · rw [if_neg (show ¬((testN fn ops (withN pr N') reset t).startStatic = true ∧ idx = 0) from hst),
      if_neg (show ¬((testN fn ops pr reset t).startStatic = true ∧ idx = 0) from hst)]
    have hres : ∀ rate dt, (testN fn ops (withN pr N') reset t).residual expm (reweigh (pr.N / N') c.1) c.2 rate dt =
        (testN fn ops pr reset t).residual expm c.1 c.2 rate dt := by
      intro rate dt
      funext x
      simp only [TriaxialTest.residual, testN, driver_withN fn ops expm pr reset _ h h']
      cases ({ law := mccLaw fn ops pr reset, isFLinearApprox := t.solver.isFLinearApprox } : Driver K dim (LawState K)).step expm c.1 c.2
        (triaxialL x rate) dt <;> rfl
    have hlat : ∀ rate dt, (testN fn ops (withN pr N') reset t).lateral expm grad (reweigh (pr.N / N') c.1) c.2 rate dt =
        (testN fn ops pr reset t).lateral expm grad c.1 c.2 rate dt := by
      intro rate dt
      simp only [TriaxialTest.lateral, hres]
      rfl
    dsimp only
    rw [show (testN fn ops (withN pr N') reset t).axialRate = (testN fn ops pr reset t).axialRate from rfl,
      show (testN fn ops (withN pr N') reset t).dt = (testN fn ops pr reset t).dt from rfl, hlat]
    simp only [testN]
    rw [driver_withN fn ops expm pr reset _ h h']

theorem scanCarry_map {St : Type*} {f g : St → ℕ → Except PyErr St} {φ : St → St} (hfg : ∀ s i, g (φ s) i = (f s i).map φ) (l : List ℕ) (s : St) :
    scanCarry g (φ s) l = (scanCarry f s l).map φ := by
  induction l generalizing s with
  | nil => rfl
  | cons i l ih =>
    rw [scanCarry, scanCarry, hfg]
    cases f s i with
    | error e => rfl
    | ok t => exact ih t

theorem scanRows_map {St : Type*} {f g : St → ℕ → Except PyErr St} {φ : St → St} (hfg : ∀ s i, g (φ s) i = (f s i).map φ) (rows : List (List ℕ))
    (s : St) : scanRows g (φ s) rows = (scanRows f s rows).map (List.map φ) := by
  induction rows generalizing s with
  | nil => rfl
  | cons r rows ih =>
    rw [scanRows, scanRows, scanCarry_map hfg]
    cases scanCarry f s r with
    | error e => rfl
    | ok t =>
      simp only [Except.map, andThen, ih t]
      cases scanRows f t rows <;> rfl

/-- **C144** (refuted): `N` cannot be found from element tests. On every path (drained, undrained, at constant pressure, any schedule)
a clay with another `N`, whose mass is adapted so that it starts on the same swelling line, has the same stresses, strains and
preconsolidation pressures at all times. -/
theorem run_withN (fn : MathFns K) (ops : NewtonOps K) (expm : Mat3 K → Mat3 K) (grad : (K → K) → K → K) (pr : MCCParams K) (reset : Bool)
    (t : TriaxialTest K dim (LawState K)) {N' : K} (h : 0 < pr.N) (h' : 0 < N') (mp : MPState K dim 1) (ls : LawState K) :
    (testN fn ops (withN pr N') reset t).run expm grad (reweigh (pr.N / N') mp) ls =
      ((testN fn ops pr reset t).run expm grad mp ls).map (List.map fun r => (reweigh (pr.N / N') r.1, r.2)) := by
  have hs : (testN fn ops (withN pr N') reset t).steps = (testN fn ops pr reset t).steps := rfl
  have hd : (testN fn ops (withN pr N') reset t).stride = (testN fn ops pr reset t).stride := rfl
  unfold TriaxialTest.run
  rw [hs, hd]
  dsimp only
  generalize hg : (testN fn ops pr reset t).steps / (testN fn ops pr reset t).stride = k
  by_cases h1 : (testN fn ops pr reset t).stride = 0
  · rw [if_pos h1, if_pos h1]; rfl
  rw [if_neg h1, if_neg h1]
  by_cases h2 : k * (testN fn ops pr reset t).stride ≠ (testN fn ops pr reset t).steps
  · rw [if_pos h2, if_pos h2]; rfl
  rw [if_neg h2, if_neg h2]
  exact scanRows_map (φ := fun r : MPState K dim 1 × LawState K => (reweigh (pr.N / N') r.1, r.2))
      (fun c i => stepIdx_withN fn ops expm grad pr reset t h h' c i) _ (mp, ls)

/-- The initial state of a test differs only in the mass. -/
theorem ocrPoint_withN (fn : MathFns K) (pr : MCCParams K) {N' : K} (h : 0 < pr.N) (h' : 0 < N') (p ocr : K) :
    ocrPoint fn (withN pr N') p ocr = (reweigh (pr.N / N') (ocrPoint fn pr p ocr).1, (ocrPoint fn pr p ocr).2) := by
  have hd : (mccFromOcr fn (withN pr N') p ocr none).density = (mccFromOcr fn pr p ocr none).density * (pr.N / N') := by
    simp only [mccFromOcr, withN, vSl, vNcl]
    by_cases h1 : fn.pow (pr.pRef / (p * ocr)) pr.lam * vKappa fn (p * ocr) p pr.kap = 0
    · rw [mul_assoc, mul_assoc, h1]; simp
    · have h2 := left_ne_zero_of_mul h1
      have h3 := right_ne_zero_of_mul h1
      have h4 := h.ne'
      have h5 := h'.ne'
      field_simp
  have hs : (mccFromOcr fn (withN pr N') p ocr none).stress = (mccFromOcr fn pr p ocr none).stress := rfl
  have hc : (mccFromOcr fn (withN pr N') p ocr none).pc = (mccFromOcr fn pr p ocr none).pc := rfl
  simp only [ocrPoint, hd, hs, hc, MPState.create, reweigh, Option.getD_some, Option.getD_none, mul_assoc]

/-- **C144** (refuted): the curves of a chain do not depend on its `N`. -/
theorem calib_kernel_N (fn : MathFns K) (ops : NewtonOps K) (expm : Mat3 K → Mat3 K) (grad : (K → K) → K → K) (x : Fin 5 → K) (hx : 0 < x 3)
    {N' : K} (h' : 0 < N') (confine : K) :
    calibKernel fn ops expm grad (Function.update x 3 N') confine = calibKernel fn ops expm grad x confine := by
  have hp : calibParams (Function.update x 3 N') = withN (calibParams x) N' := by
    simp [calibParams, withN, calibKap, Function.update]
  have hr := run_withN fn ops expm grad (calibParams x) true (calibTest (mccLaw fn ops (calibParams x) true) confine) (N' := N')
    (show 0 < (calibParams x).N from hx) h' (ocrPoint fn (calibParams x) confine 1).1 (ocrPoint fn (calibParams x) confine 1).2
  have e1 : testN fn ops (withN (calibParams x) N') true (calibTest (mccLaw fn ops (calibParams x) true) confine) =
      calibTest (mccLaw fn ops (withN (calibParams x) N') true) confine := rfl
  have e2 : testN fn ops (calibParams x) true (calibTest (mccLaw fn ops (calibParams x) true) confine) =
      calibTest (mccLaw fn ops (calibParams x) true) confine := rfl
  rw [e1, e2] at hr
  unfold calibKernel
  simp only [hp, ocrPoint_withN fn (calibParams x) (show 0 < (calibParams x).N from hx) h', hr]
  cases (calibTest (mccLaw fn ops (calibParams x) true) confine).run expm grad (ocrPoint fn (calibParams x) confine 1).1
      (ocrPoint fn (calibParams x) confine 1).2 with
  | error e => rfl
  | ok tr =>
    simp only [Except.map, andThen, List.map_map]
    rfl

/-- **C144** (refuted): the loss does not depend on `N`, whatever was measured. -/
theorem calib_loss_N (fn : MathFns K) (ops : NewtonOps K) (expm : Mat3 K → Mat3 K) (grad : (K → K) → K → K)
    (interp : List K → List K → K → K) (data : List (K × K)) (confines : List K) (x : Fin 5 → K) (hx : 0 < x 3) {N' : K} (h' : 0 < N') :
    calibLoss fn ops expm grad interp data confines (Function.update x 3 N') = calibLoss fn ops expm grad interp data confines x := by
  simp only [calibLoss, calib_kernel_N fn ops expm grad x hx h']

/-- **C144** (refuted): if some parameters fit best, they fit best with every value of `N` within the bounds. -/
theorem calib_best_N (fn : MathFns K) (ops : NewtonOps K) (expm : Mat3 K → Mat3 K) (grad : (K → K) → K → K)
    (interp : List K → List K → K → K) (data : List (K × K)) (confines : List K) (x : Fin 5 → K)
    (hx : ∀ k, x k ∈ Set.Icc (calibLo k) (calibHi k))
    (hbest : ∀ y : Fin 5 → K, (∀ k, y k ∈ Set.Icc (calibLo k) (calibHi k)) →
      calibLoss fn ops expm grad interp data confines x ≤ calibLoss fn ops expm grad interp data confines y)
    {N' : K} (hN : N' ∈ Set.Icc (4 / 10 : K) 4) :
    (∀ k, Function.update x 3 N' k ∈ Set.Icc (calibLo k) (calibHi k)) ∧
    ∀ y : Fin 5 → K, (∀ k, y k ∈ Set.Icc (calibLo k) (calibHi k)) →
      calibLoss fn ops expm grad interp data confines (Function.update x 3 N') ≤ calibLoss fn ops expm grad interp data confines y := by
  have h3 : (4 / 10 : K) ≤ x 3 := (hx 3).1
  refine ⟨fun k => ?_, fun y hy => ?_⟩
  · by_cases hk : k = 3
    · subst hk; rw [Function.update_self]; exact hN
    · rw [Function.update_of_ne hk]; exact hx k
  · rw [calib_loss_N fn ops expm grad interp data confines x (lt_of_lt_of_le (by norm_num) h3) (lt_of_lt_of_le (by norm_num) hN.1)]
    exact hbest y hy

theorem mcc_driver_ok (fn : MathFns K) (ops : NewtonOps K) (expm : Mat3 K → Mat3 K) (pr : MCCParams K) (reset : Bool) (mp : MPState K dim 1)
    (ls : LawState K) (hls : ∃ pc r e, ls = .mcc pc (some r) e) (L : Mat3 K) (dt : K) :
    ∃ r, ({ law := mccLaw fn ops pr reset } : Driver K dim (LawState K)).step expm mp ls L dt = .ok r ∧ ∃ pc r' e, r.2 = .mcc pc (some r') e := by
  obtain ⟨pc, r, e, rfl⟩ := hls
  exact ⟨_, rfl, _, _, _, rfl⟩

theorem scanRows_ok {St : Type*} {f : St → ℕ → Except PyErr St} {P : St → Prop} (hf : ∀ s i, P s → ∃ t, f s i = .ok t ∧ P t) (rows : List (List ℕ))
    (s : St) (hs : P s) : ∃ l, scanRows f s rows = .ok l ∧ l.length = rows.length := by
  have hc : ∀ (l : List ℕ) (s : St), P s → ∃ t, scanCarry f s l = .ok t ∧ P t := by
    intro l
    induction l with
    | nil => exact fun s hs => ⟨s, rfl, hs⟩
    | cons i l ih =>
      intro s hs
      obtain ⟨t, h1, h2⟩ := hf s i hs
      obtain ⟨u, h3, h4⟩ := ih t h2
      exact ⟨u, by rw [scanCarry, h1]; exact h3, h4⟩
  induction rows generalizing s with
  | nil => exact ⟨[], rfl, rfl⟩
  | cons r rows ih =>
    obtain ⟨t, h1, h2⟩ := hc r s hs
    obtain ⟨l, h3, h4⟩ := ih t h2
    exact ⟨t :: l, by rw [scanRows, h1]; simp only [andThen, h3], by simp [h4]⟩

/-- **C144**: every chain runs its test to the end and returns a thousand pressures and shear stresses. -/
theorem calib_runs (fn : MathFns K) (ops : NewtonOps K) (expm : Mat3 K → Mat3 K) (grad : (K → K) → K → K) (x : Fin 5 → K) (confine : K) :
    ∃ p q e, calibKernel fn ops expm grad x confine = .ok (p, q, e) ∧ p.length = 1000 ∧ q.length = 1000 := by
  obtain ⟨l, h1, h2⟩ := scanRows_ok (P := fun c : MPState K 3 1 × LawState K => ∃ pc r e, c.2 = .mcc pc (some r) e)
    (f := (calibTest (mccLaw fn ops (calibParams x) true) confine).stepIdx expm grad) (by
      rintro ⟨mp, ls⟩ i hs
      exact mcc_driver_ok fn ops expm (calibParams x) true mp ls hs _ _) (indexRows 1000 1)
    ((ocrPoint fn (calibParams x) confine 1).1, (ocrPoint fn (calibParams x) confine 1).2) ⟨_, _, _, rfl⟩
  have hr : (calibTest (mccLaw fn ops (calibParams x) true) confine).run expm grad (ocrPoint fn (calibParams x) confine 1).1
      (ocrPoint fn (calibParams x) confine 1).2 = .ok l := by
    have hd : (calibTest (mccLaw fn ops (calibParams x) true) confine).stride = 1 := rfl
    have hs : (calibTest (mccLaw fn ops (calibParams x) true) confine).steps = 1000 := rfl
    unfold TriaxialTest.run
    rw [hd, hs, if_neg one_ne_zero, Nat.div_one]
    dsimp only
    rw [Nat.mul_one, if_neg (fun h => h rfl)]
    exact h1
  refine ⟨l.map (fun r => r.1.pressure 0 / 1000), l.map (fun r => qVm fn (r.1.stress 0) / 1000), _, by
    rw [calibKernel]; simp only [hr, andThen]; rfl, ?_, ?_⟩ <;>
  · rw [List.length_map, h2]; simp [indexRows]

/-- The samples of the data generator: the stored curves are the same for every `N` as well. -/
theorem dataset_withN (fn : MathFns K) (ops : NewtonOps K) (expm : Mat3 K → Mat3 K) (grad : (K → K) → K → K) (pr : MCCParams K) (reset : Bool)
    {N' : K} (h : 0 < pr.N) (h' : 0 < N') (m : DatasetMode) (confine ocr : K) :
    datasetRow expm grad (mccLaw fn ops (withN pr N') reset : Law K 3 (LawState K)) confine m (ocrPoint fn (withN pr N') confine ocr).1
        (ocrPoint fn (withN pr N') confine ocr).2 =
      datasetRow expm grad (mccLaw fn ops pr reset : Law K 3 (LawState K)) confine m (ocrPoint fn pr confine ocr).1 (ocrPoint fn pr confine ocr).2 := by
  have hr := run_withN fn ops expm grad pr reset (datasetTest (mccLaw fn ops pr reset : Law K 3 (LawState K)) confine m) (N' := N') h h'
    (ocrPoint fn pr confine ocr).1 (ocrPoint fn pr confine ocr).2
  have e1 : testN fn ops (withN pr N') reset (datasetTest (mccLaw fn ops pr reset : Law K 3 (LawState K)) confine m) =
      datasetTest (mccLaw fn ops (withN pr N') reset : Law K 3 (LawState K)) confine m := rfl
  have e2 : testN fn ops pr reset (datasetTest (mccLaw fn ops pr reset : Law K 3 (LawState K)) confine m) = datasetTest (mccLaw fn ops pr reset : Law K 3 (LawState K)) confine m := rfl
  rw [e1, e2] at hr
  unfold datasetRow
  simp only [ocrPoint_withN fn pr h h', hr]
  cases (datasetTest (mccLaw fn ops pr reset : Law K 3 (LawState K)) confine m).run expm grad (ocrPoint fn pr confine ocr).1 (ocrPoint fn pr confine ocr).2 with
  | error e => rfl
  | ok tr =>
    simp only [Except.map, andThen, List.map_map]
    rfl

end

/-! ### The optimiser -/

section
variable (ops : NewtonOps ℝ) (expm : Mat3 ℝ → Mat3 ℝ) (tgrad : (ℝ → ℝ) → ℝ → ℝ) (interp : List ℝ → List ℝ → ℝ → ℝ) (data : List (ℝ × ℝ))
  (confines : List ℝ)

/-- `g` returns the partial derivatives of `f` wherever these exist. -/
def Spec.IsGrad {d : ℕ} (f : (Fin d → ℝ) → ℝ) (g : (Fin d → ℝ) → Fin d → ℝ) : Prop :=
  ∀ x k, DifferentiableAt ℝ (fun t => f (Function.update x k t)) (x k) → g x k = deriv (fun t => f (Function.update x k t)) (x k)

open Spec

/-- **C144** (refuted): the gradient of the loss along `N` is zero, and with it the sensitivity that is printed. -/
theorem calib_grad_N {g : (Fin 5 → ℝ) → Fin 5 → ℝ} (hg : IsGrad (calibLoss realFns ops expm tgrad interp data confines) g)
    (x : Fin 5 → ℝ) (hx : 0 < x 3) : g x 3 = 0 ∧ ∀ l, calibSensitivity g x l 3 = 0 := by
  have he : (fun t => calibLoss realFns ops expm tgrad interp data confines (Function.update x 3 t)) =ᶠ[nhds (x 3)]
      fun _ => calibLoss realFns ops expm tgrad interp data confines x :=
    (lt_mem_nhds hx).mono fun t ht => calib_loss_N realFns ops expm tgrad interp data confines x hx ht
  have hd : HasDerivAt (fun t => calibLoss realFns ops expm tgrad interp data confines (Function.update x 3 t)) 0 (x 3) :=
    (hasDerivAt_const (x 3) _).congr_of_eventuallyEq he
  have h0 : g x 3 = 0 := by rw [hg x 3 hd.differentiableAt, hd.deriv]
  exact ⟨h0, fun l => by simp [calibSensitivity, h0]⟩

/-- **C144** (refuted): the `N` of every chain keeps its first, random value, whatever was measured and however long the optimiser runs. -/
theorem calib_N_frozen {g : (Fin 5 → ℝ) → Fin 5 → ℝ} (hg : IsGrad (calibLoss realFns ops expm tgrad interp data confines) g) {C : ℕ}
    (pop : Fin C → Fin 5 → ℝ) (hpop : ∀ c, pop c 3 ∈ Set.Icc (4 / 10 : ℝ) 4) (losses : Fin C → ℝ) (n : ℕ) (c : Fin C) :
    (calibRun (calibLoss realFns ops expm tgrad interp data confines) (adamStep realFns g) calibLo calibHi n
      { pop := pop, opt := AdamState.init, losses := losses }).pop c 3 = pop c 3 := by
  set f := calibLoss realFns ops expm tgrad interp data confines
  have key : ∀ n, let s := calibRun f (adamStep realFns g) calibLo calibHi n { pop := pop, opt := AdamState.init, losses := losses }
      ∀ c, s.pop c 3 = pop c 3 ∧ s.opt.m c 3 = 0 ∧ s.opt.v c 3 = 0 := by
    intro n
    induction n with
    | zero => exact fun c => ⟨rfl, rfl, rfl⟩
    | succ n ih =>
      intro s c
      obtain ⟨h1, h2, h3⟩ := ih c
      have hpos : 0 < (calibRun f (adamStep realFns g) calibLo calibHi n { pop := pop, opt := AdamState.init, losses := losses }).pop c 3 := by
        rw [h1]; exact lt_of_lt_of_le (by norm_num) (hpop c).1
      have h0 := (calib_grad_N ops expm tgrad interp data confines hg _ hpos).1
      simp only [s, calibRun, calibStep, adamStep, adamUpdate, h0, h2, h3, h1]
      have hl : (calibLo (3 : Fin 5) : ℝ) = 4 / 10 := rfl
      have hh : (calibHi (3 : Fin 5) : ℝ) = 4 := rfl
      rw [hl, hh]
      refine ⟨?_, by ring, by ring⟩
      have hz : (1 / 10 * 0 + 9 / 10 * 0 : ℝ) = 0 := by norm_num
      rw [hz, zero_div, zero_div, mul_zero, add_zero, max_eq_left (hpop c).1, min_eq_left (hpop c).2]
  exact (key n c).1

/-- **C144** (refuted): the `N` that is reported is one of the values drawn at random before anything was compared with the measurements. -/
theorem calib_report_N {g : (Fin 5 → ℝ) → Fin 5 → ℝ} (hg : IsGrad (calibLoss realFns ops expm tgrad interp data confines) g) {C : ℕ}
    (pop : Fin (C + 1) → Fin 5 → ℝ) (hpop : ∀ c, pop c 3 ∈ Set.Icc (4 / 10 : ℝ) 4) (losses : Fin (C + 1) → ℝ) (n : ℕ) :
    ∃ c, (calibReport (calibRun (calibLoss realFns ops expm tgrad interp data confines) (adamStep realFns g) calibLo calibHi n
      { pop := pop, opt := AdamState.init, losses := losses })).1 3 = pop c 3 :=
  ⟨_, calib_N_frozen ops expm tgrad interp data confines hg pop hpop losses n _⟩

end

/-! ### What element tests do determine -/

open Spec

/-- **C144**: the elastic answer determines `kap` and `nu`: two clays that answer one elastic step, with a change of volume and of shape,
by the same stress have the same `kap` and the same `nu`. -/
theorem elastic_step_determines_partial {pr pr' : MCCParams ℝ} (hk : 0 < pr.kap) (hk' : 0 < pr'.kap) (hn : -1 < pr.nu) (hn' : -1 < pr'.nu)
    (hp : pr.pMin = pr'.pMin) (hp0 : 0 < pr.pMin) (hf : pr.KMin = none ∧ pr.KMax = none ∧ pr'.KMin = none ∧ pr'.KMax = none)
    {L epsE σ ref : Mat3 ℝ} {pc dt : ℝ} (hv : volStrain (dt • symTensor L) ≠ 0)
    (hd : devStrainV (dt • symTensor L) (volStrain (dt • symTensor L)) ≠ 0)
    (h : (mccElastic (mccTrial realFns pr L epsE σ pc ref dt) pc).stress = (mccElastic (mccTrial realFns pr' L epsE σ pc ref dt) pc).stress) :
    pr.kap = pr'.kap ∧ pr.nu = pr'.nu := by
  obtain ⟨f1, f2, f3, f4⟩ := hf
  set e := dt • symTensor L with he
  set v := volStrain e with hve
  set P := max (pressureOf (jaumann σ (spinTensor L) dt)) pr.pMin with hP
  have hPpos : 0 < P := lt_of_lt_of_le hp0 (le_max_right _ _)
  set S := devStressP (jaumann σ (spinTensor L) dt) P with hS
  have form : ∀ q : MCCParams ℝ, q.pMin = pr.pMin → q.KMin = none → q.KMax = none →
      (mccElastic (mccTrial realFns q L epsE σ pc ref dt) pc).stress =
        (2 * mccG q.nu (1 / q.kap * max (max (P * Real.exp (v / q.kap)) pr.pMin) 1)) • devStrainV e v + S + isoT (P * Real.exp (v / q.kap)) := by
    intro q hq1 hq2 hq3
    simp only [mccElastic, mccTrial, mccS, mccPressure, mccK, clipOpt, hq1, hq2, hq3]
    rfl
  rw [form pr rfl f1 f2, form pr' hp.symm f3 f4] at h
  have htr : (devStrainV e v).trace = 0 := by
    simp only [devStrainV, Matrix.trace_sub, Matrix.trace_smul, Matrix.trace_one, Fintype.card_fin, smul_eq_mul, hve, volStrain]
    push_cast
    ring
  have ht := congrArg Matrix.trace h
  simp only [Matrix.trace_add, Matrix.trace_smul, htr, smul_zero, zero_add, isoT, Matrix.trace_one, Fintype.card_fin, smul_eq_mul] at ht
  have hexp : Real.exp (v / pr.kap) = Real.exp (v / pr'.kap) := by
    have h3 : P * Real.exp (v / pr.kap) = P * Real.exp (v / pr'.kap) := by
      push_cast at ht
      linarith
    exact mul_left_cancel₀ hPpos.ne' h3
  have hkk : pr.kap = pr'.kap := by
    have h4 := Real.exp_injective hexp
    rw [div_eq_div_iff hk.ne' hk'.ne'] at h4
    exact (mul_left_cancel₀ hv h4).symm
  refine ⟨hkk, ?_⟩
  rw [← hkk] at h
  set Kb := 1 / pr.kap * max (max (P * Real.exp (v / pr.kap)) pr.pMin) 1
  have hKb : 0 < Kb := mul_pos (one_div_pos.mpr hk) (lt_of_lt_of_le one_pos (le_max_right _ _))
  have h5 : (2 * mccG pr.nu Kb) • devStrainV e v = (2 * mccG pr'.nu Kb) • devStrainV e v := add_right_cancel (add_right_cancel h)
  have h6 : 2 * mccG pr.nu Kb = 2 * mccG pr'.nu Kb := smul_left_injective ℝ hd h5
  have a1 : 0 < 1 + pr.nu := by linarith
  have a2 : 0 < 1 + pr'.nu := by linarith
  have h7 : 3 * (1 - 2 * pr.nu) / (2 * (1 + pr.nu)) = 3 * (1 - 2 * pr'.nu) / (2 * (1 + pr'.nu)) := by
    have : mccG pr.nu Kb = mccG pr'.nu Kb := by linarith
    exact mul_right_cancel₀ hKb.ne' this
  rw [div_eq_div_iff (by positivity) (by positivity)] at h7
  linarith

/-- Two yielding steps that differ only in friction and hardening and end at the same stress have the same friction and hardening. -/
theorem return_determines {d d' : ReturnData} (hd : d.Good) (hd' : d'.Good) (e1 : d'.kap = d.kap) (e2 : d'.p0 = d.p0) (e3 : d'.pc0 = d.pc0)
    (e4 : d'.dev = d.dev) (e5 : d'.qtr = d.qtr) (e6 : d'.G = d.G) {l a l' a' : ℝ} (hl : 0 ≤ l) (hl' : 0 ≤ l') (ha : a ≠ 0)
    (h : d.Solves l a) (h' : d'.Solves l' a') (hp : d'.p a' = d.p a) (hq : d'.q l' a' = d.q l a) : d'.M = d.M ∧ d'.cp = d.cp := by
  have haa : a' = a := by
    simp only [ReturnData.p, e1, e2, e4] at hp
    have h1 := Real.exp_injective (mul_left_cancel₀ hd.p0.ne' hp)
    have h2 := (div_left_inj' hd.kap.ne').mp h1
    linarith
  subst haa
  have hP := ret_p_pos hd a'
  have hG := hd.Gpos _ hP
  have hll : l' = l := by
    simp only [ReturnData.q, e5, e6, hp] at hq
    have h1 : 0 < 1 + 6 * d.G (d.p a') * l := by positivity
    have h2 : 0 < 1 + 6 * d.G (d.p a') * l' := by positivity
    rw [div_eq_div_iff h2.ne' h1.ne'] at hq
    have h3 := mul_left_cancel₀ hd.qtr.ne' hq
    have h4 : d.G (d.p a') * l = d.G (d.p a') * l' := by linarith
    exact (mul_left_cancel₀ hG.ne' h4).symm
  subst hll
  have hl0 : l' ≠ 0 := by
    rintro rfl
    exact ha (by simpa using h.2)
  obtain ⟨y1, f1⟩ := h
  obtain ⟨y2, f2⟩ := h'
  rw [hq, hp] at y2
  rw [hp] at f2
  have hM := hd.M
  have hM' := hd'.M
  set P := d.p a'
  set Q := d.q l' a'
  rw [div_pow] at y1 y2
  have g1 : d.pc a' * P * d.M ^ 2 = Q ^ 2 + P ^ 2 * d.M ^ 2 := by field_simp at y1; linarith
  have g2 : d'.pc a' * P * d'.M ^ 2 = Q ^ 2 + P ^ 2 * d'.M ^ 2 := by field_simp at y2; linarith
  have k1 : a' * P = l' * (P ^ 2 * d.M ^ 2 - Q ^ 2) := by
    have : a' * P = l' * (2 * P ^ 2 * d.M ^ 2 - d.pc a' * P * d.M ^ 2) := by linear_combination P * f1
    rw [this, g1]; ring
  have k2 : a' * P = l' * (P ^ 2 * d'.M ^ 2 - Q ^ 2) := by
    have : a' * P = l' * (2 * P ^ 2 * d'.M ^ 2 - d'.pc a' * P * d'.M ^ 2) := by linear_combination P * f2
    rw [this, g2]; ring
  have hMM : d'.M = d.M := by
    have h1 := mul_left_cancel₀ hl0 (k1.symm.trans k2)
    have h2 : P ^ 2 * d'.M ^ 2 = P ^ 2 * d.M ^ 2 := by linarith
    have h3 := mul_left_cancel₀ (pow_pos hP 2).ne' h2
    exact (pow_left_inj₀ hM'.le hM.le two_ne_zero).mp h3
  refine ⟨hMM, ?_⟩
  rw [hMM, ← g1] at g2
  have h1 : d'.pc a' = d.pc a' := by
    have := mul_right_cancel₀ (pow_pos hM 2).ne' g2
    exact mul_right_cancel₀ hP.ne' this
  simp only [ReturnData.pc, e3] at h1
  have h2 := Real.exp_injective (mul_left_cancel₀ hd.pc0.ne' h1)
  rw [div_eq_div_iff hd'.cp.ne' hd.cp.ne'] at h2
  exact (mul_left_cancel₀ ha h2).symm

/-- **C144**: a yielding step determines `M` and `lam`: two clays with the same elasticity that answer the same step, on the wet side and
with the loop at its solution, by the same stress have the same `M` and the same `lam`, whatever their `N`. -/
theorem plastic_step_determines_partial (ops : NewtonOps ℝ) {pr : MCCParams ℝ} {M' lam' N' : ℝ} (h : pr.Clay)
    (h' : ({ pr with M := M', lam := lam', N := N' } : MCCParams ℝ).Clay) (L e σ : Mat3 ℝ) {pc : ℝ} (σref : Mat3 ℝ) (v v' dt : ℝ)
    (hv : v ≤ pr.N * (999999 / 1000000)) (hv' : v' ≤ N' * (999999 / 1000000)) (hpc : 0 < pc) (hσ : 0 < meanStress σ) (hmin : pr.pMin ≤ meanStress σ)
    (hy : 0 < mccF pr.M pc (mccTrialStress pr L σ dt)) (hy' : 0 < mccF M' pc (mccTrialStress pr L σ dt))
    (hw : pc < 2 * meanStress (mccTrialStress pr L σ dt)) (hq : 1 / 10 ^ 6 ≤ qVM (mccTrialStress pr L σ dt))
    (hc : mccLeft ops pr (mccTrial realFns pr L e σ pc σref dt) pc = 0)
    (hc' : mccLeft ops { pr with M := M', lam := lam', N := N' }
      (mccTrial realFns { pr with M := M', lam := lam', N := N' } L e σ pc σref dt) pc = 0)
    (hs : (mccUpdate realFns ops { pr with M := M', lam := lam', N := N' } L e σ pc σref v' dt).stress =
      (mccUpdate realFns ops pr L e σ pc σref v dt).stress) : M' = pr.M ∧ lam' = pr.lam := by
  have h0 : (mccReturn pr L σ pc dt).pc 0 = pc := by simp [ReturnData.pc, mccReturn]
  have h1 : (mccReturn pr L σ pc dt).p 0 = meanStress (mccTrialStress pr L σ dt) := by
    simp only [mccTrialStress_mean, ReturnData.p, mccReturn, sub_zero]
  obtain ⟨l, a, hl, s1, w1, -⟩ := return_exists (mccReturn_good h L σ dt hσ hpc) (mccReturn_yields L σ dt hy)
  obtain ⟨l', a', hl', s2, -, -⟩ := return_exists (mccReturn_good h' L σ dt hσ hpc) (mccReturn_yields L σ dt hy')
  obtain ⟨-, r2, r3⟩ := mcc_converged_solution ops h L e σ σref v dt hv hpc hσ hmin hy hw hq hc hl s1
  obtain ⟨-, r5, r6⟩ := mcc_converged_solution ops h' L e σ σref v' dt hv' hpc hσ hmin hy' hw hq hc' hl' s2
  rw [hs] at r5 r6
  have ha := (w1 (by rw [h0, h1]; exact hw)).1
  have := return_determines (mccReturn_good h L σ dt hσ hpc) (mccReturn_good h' L σ dt hσ hpc) rfl rfl rfl rfl rfl rfl hl hl' ha.ne' s1 s2
    (r5.symm.trans r2) (r6.symm.trans r3)
  refine ⟨this.1, ?_⟩
  have h3 : lam' - pr.kap = pr.lam - pr.kap := this.2
  linarith

/-! ### Concrete cases -/

/-- The middle of the bounds. -/
noncomputable def exCalib : Fin 5 → ℝ := ![1, 1 / 10, 1 / 2, 2, 3 / 10]

theorem exCalib_vals : exCalib 1 = 1 / 10 ∧ exCalib 2 = 1 / 2 ∧ exCalib 3 = 2 ∧ exCalib 4 = 3 / 10 := ⟨rfl, rfl, rfl, rfl⟩

example := calib_loss_N realFns { jac := fun _ _ => 1, bad := fun _ => false } (fun A => 1 + A) (fun f x => f (x + 1) - f x)
  (fun _ ys _ => ys.sum) [(1, 50), (2, 60)] [100000] exCalib (by norm_num [exCalib_vals]) (N' := 3) (by norm_num)
example := run_withN (dim := 3) realFns { jac := fun _ _ => 1, bad := fun _ => false } (fun A => 1 + A) (fun f x => f (x + 1) - f x)
  (calibParams exCalib) true (calibTest (mccLaw realFns { jac := fun _ _ => 1, bad := fun _ => false } (calibParams exCalib) true) 100000)
  (show 0 < (calibParams exCalib).N by norm_num [calibParams, exCalib_vals]) (N' := 3) (by norm_num)
  (ocrPoint realFns (calibParams exCalib) 100000 2).1 (ocrPoint realFns (calibParams exCalib) 100000 2).2
example := calib_report_N { jac := fun _ _ => 1, bad := fun _ => false } (fun A => 1 + A) (fun f x => f (x + 1) - f x)
  (fun _ ys _ => ys.sum) [(1, 50), (2, 60)] [100000]
  (g := fun x k => deriv (fun t => calibLoss realFns { jac := fun _ _ => 1, bad := fun _ => false } (fun A => 1 + A) (fun f x => f (x + 1) - f x)
    (fun _ ys _ => ys.sum) [(1, 50), (2, 60)] [100000] (Function.update x k t)) (x k)) (fun _ _ _ => rfl)
  (C := 99) (fun _ => exCalib) (fun _ => by norm_num [exCalib_vals]) (fun _ => 0) 101

/-- Two clays that differ in stiffness only; one elastic step in one direction. -/
example {nu : ℝ} (hn : -1 < nu) {kap : ℝ} (hk : 0 < kap)
    (h : (mccElastic (mccTrial realFns (calibParams exCalib) (Matrix.diagonal ![1, 0, 0]) 0 (isoT 1000) 2000 (isoT 1000) (1 / 100)) 2000).stress =
      (mccElastic (mccTrial realFns { calibParams exCalib with nu := nu, kap := kap } (Matrix.diagonal ![1, 0, 0]) 0 (isoT 1000) 2000 (isoT 1000)
        (1 / 100)) 2000).stress) : kap = 1 / 20 ∧ nu = 3 / 10 := by
  have := elastic_step_determines_partial (pr := calibParams exCalib) (pr' := { calibParams exCalib with nu := nu, kap := kap })
    (by norm_num [calibParams, calibKap, exCalib_vals]) hk (by norm_num [calibParams, exCalib_vals]) hn rfl (by norm_num [calibParams])
    ⟨rfl, rfl, rfl, rfl⟩ (by simp [volStrain, symTensor, Matrix.trace, Fin.sum_univ_three]) (by
      intro h0
      have := congrFun (congrFun h0 1) 1
      simp [devStrainV, volStrain, symTensor, Matrix.trace, Fin.sum_univ_three] at this) h
  refine ⟨this.1.symm.trans ?_, this.2.symm.trans ?_⟩ <;> norm_num [calibParams, calibKap, exCalib_vals]

/-- The squeezed point of `CamClayReturn` is sheared. -/
theorem exSqueeze_sheared : 1 / 10 ^ 6 ≤ qVM (mccTrialStress exMCC exSqueeze (isoT 100) 1) := by
  have htr : (strainInc exSqueeze 1).trace / exMCC.kap = 1 := by
    rw [trace3]
    simp [strainInc, exSqueeze, exMCC]
    norm_num
  have he : 2 < Real.exp 1 := by have := Real.exp_one_gt_d9; linarith
  have hent : 1 ≤ dev (mccTrialStress exMCC exSqueeze (isoT 100) 1) 0 0 := by
    unfold mccTrialStress
    simp only [htr, meanStress_isoT]
    simp [dev, meanStress, jaumannRotated, strainInc, exSqueeze, isoT, mccShear, mccBulk, exMCC]
    rw [max_eq_left (by linarith : (1 : ℝ) ≤ 100 * Real.exp 1)]
    generalize Real.exp 1 = y at he
    ring_nf
    linarith
  have h2 : 1 ≤ qVM (mccTrialStress exMCC exSqueeze (isoT 100) 1) ^ 2 := by
    rw [qVM_sq, J2]
    have : dev (mccTrialStress exMCC exSqueeze (isoT 100) 1) 0 0 ^ 2 ≤
        ddot (dev (mccTrialStress exMCC exSqueeze (isoT 100) 1)) (dev (mccTrialStress exMCC exSqueeze (isoT 100) 1)) := by
      simp only [ddot, Fin.sum_univ_three]
      nlinarith [sq_nonneg (dev (mccTrialStress exMCC exSqueeze (isoT 100) 1) 0 1)]
    nlinarith
  have h3 : 0 ≤ qVM (mccTrialStress exMCC exSqueeze (isoT 100) 1) := Real.sqrt_nonneg _
  nlinarith

/-- One squeezed point: any clay of the same elasticity that ends at the stress of `exMCC` is `exMCC` up to `N`. -/
example (ops : NewtonOps ℝ) {M' lam' N' : ℝ} (h' : ({ exMCC with M := M', lam := lam', N := N' } : MCCParams ℝ).Clay) (hN : 8 / 5 ≤ N')
    (hc : mccLeft ops exMCC (mccTrial realFns exMCC exSqueeze 0 (isoT 100) 100 (isoT 100) 1) 100 = 0)
    (hc' : mccLeft ops { exMCC with M := M', lam := lam', N := N' }
      (mccTrial realFns { exMCC with M := M', lam := lam', N := N' } exSqueeze 0 (isoT 100) 100 (isoT 100) 1) 100 = 0)
    (hs : (mccUpdate realFns ops { exMCC with M := M', lam := lam', N := N' } exSqueeze 0 (isoT 100) 100 (isoT 100) (3 / 2) 1).stress =
      (mccUpdate realFns ops exMCC exSqueeze 0 (isoT 100) 100 (isoT 100) (3 / 2) 1).stress) : M' = 1 ∧ lam' = 2 / 100 := by
  have hm : 100 < meanStress (mccTrialStress exMCC exSqueeze (isoT 100) 1) := by
    rw [mccTrialStress_mean, meanStress_isoT, show (strainInc exSqueeze 1).trace / exMCC.kap = 1 by
      rw [trace3]
      simp [strainInc, exSqueeze, exMCC]
      norm_num]
    nlinarith [Real.exp_one_gt_d9]
  refine plastic_step_determines_partial ops exMCC_clay h' exSqueeze 0 (isoT 100) (isoT 100) (3 / 2) (3 / 2) 1 (by norm_num [exMCC])
    (by linarith) (by norm_num) (by rw [meanStress_isoT]; norm_num) (by rw [meanStress_isoT]; norm_num [exMCC]) exSqueeze_yields ?_ exSqueeze_wet
    exSqueeze_sheared hc hc' hs
  rw [mccF]
  have : 0 ≤ qVM (mccTrialStress exMCC exSqueeze (isoT 100) 1) ^ 2 / M' ^ 2 := by positivity
  nlinarith

end Hydrax
