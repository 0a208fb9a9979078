import Verif.Lemmas.LatSym
import Verif.Lemmas.SceneEst
import Verif.Model.LawTable

/-!
# C90: the constitutive laws have no preferred direction

All laws, all inputs, every orthogonal matrix (rotations and reflections).
-/

set_option linter.unusedSectionVars false

namespace Hydrax

open Spec

/-- The state of a law seen in rotated axes: tensors are rotated, scalars kept. -/
def Spec.rotatedState {K : Type*} [Field K] (R : Matrix (Fin 3) (Fin 3) K) : LawState K → LawState K
  | .elastic r => .elastic fun i => rotated R (r i)
  | .density r => .density r
  | .dp e a b => .dp (fun i => rotated R (e i)) a b
  | .mcc pc r e => .mcc pc (r.map fun f i => rotated R (f i)) fun i => rotated R (e i)

/-- `s'` has the tensors of `s` seen in rotated axes, and the same masses and volumes; nothing is asked of positions, velocities,
forces and deformation gradients. -/
structure Spec.SeenRotated {K : Type*} [Field K] {dim n : ℕ} (R : Matrix (Fin 3) (Fin 3) K) (s s' : MPState K dim n) : Prop where
  L : ∀ p, s'.L p = rotated R (s.L p)
  stress : ∀ p, s'.stress p = rotated R (s.stress p)
  mass : s'.mass = s.mass
  volume : s'.volume = s.volume
  shape : s'.volScalar = s.volScalar

section
variable {K : Type*} [Field K] [LinearOrder K] [IsStrictOrderedRing K] {R : Mat3 K}

theorem isoT_rotated (h : Orthogonal3 R) (c : K) : rotated R (isoT c) = isoT c := rotated_isoT h c

theorem symTensor_rotated (L : Mat3 K) : symTensor (rotated R L) = rotated R (symTensor L) := by
  unfold symTensor
  rw [rotated_transpose, ← rotated_add, rotated_smul]

theorem spinTensor_rotated (L : Mat3 K) : spinTensor (rotated R L) = rotated R (spinTensor L) := by
  unfold spinTensor
  rw [rotated_transpose, ← rotated_sub, rotated_smul]

theorem jaumann_rotated (h : Orthogonal3 R) (T W : Mat3 K) (dt : K) :
    jaumann (rotated R T) (rotated R W) dt = rotated R (jaumann T W dt) := by
  unfold jaumann
  rw [rotated_add, rotated_smul, rotated_sub, rotated_mul h, rotated_mul h]

theorem devStrainV_rotated (h : Orthogonal3 R) (e : Mat3 K) (v : K) : devStrainV (rotated R e) v = rotated R (devStrainV e v) := by
  unfold devStrainV
  rw [rotated_sub, rotated_smul, rotated_one h]

theorem devStressP_rotated (h : Orthogonal3 R) (e : Mat3 K) (p : K) : devStressP (rotated R e) p = rotated R (devStressP e p) := by
  unfold devStressP
  rw [rotated_sub, rotated_smul, rotated_one h]

theorem dcontr_rotated (h : Orthogonal3 R) (A B : Mat3 K) : dcontr (rotated R A) (rotated R B) = dcontr A B := by
  rw [dcontr_eq, dcontr_eq, ddot_rotated h]

theorem J2dev_rotated (h : Orthogonal3 R) (s : Mat3 K) : J2dev (rotated R s) = J2dev s := by
  unfold J2dev; rw [dcontr_rotated h]

theorem volStrain_rotated (h : Orthogonal3 R) (e : Mat3 K) : volStrain (rotated R e) = volStrain e := trace_rotated h e

theorem pressureOf_rotated (h : Orthogonal3 R) (σ : Mat3 K) : pressureOf (rotated R σ) = pressureOf σ := by
  unfold pressureOf; rw [trace_rotated h]

/-! ### One point -/

/-- **C90** (linear elasticity, one point). -/
theorem elasticStress_rotated (h : Orthogonal3 R) (E nu : K) (L σ : Mat3 K) (dt : K) :
    elasticStress E nu (rotated R L) (rotated R σ) dt = rotated R (elasticStress E nu L σ dt) := by
  unfold elasticStress
  simp only [rotated_transpose, ← rotated_add, ← rotated_smul, trace_rotated h]
  rw [rotated_add, rotated_add, rotated_isoT h]

/-- **C90** (Newtonian fluid, one point). -/
theorem fluidStress_rotated (h : Orthogonal3 R) (fn : MathFns K) (pr : FluidParams K) (L : Mat3 K) (m v r : K) :
    fluidStress fn pr (rotated R L) m v r = rotated R (fluidStress fn pr L m v r) := by
  unfold fluidStress
  simp only [rotated_transpose, ← rotated_add, ← rotated_smul, trace_rotated h]
  simp only [rotated_add, rotated_sub, rotated_smul, rotated_isoT h, rotated_one h]

/-- **C90** (mu(I), one point). -/
theorem muIStress_rotated (h : Orthogonal3 R) (fn : MathFns K) (pr : MuIParams K) (L : Mat3 K) (m v r : K) :
    muIStress fn pr (rotated R L) m v r = rotated R (muIStress fn pr L m v r) := by
  have e : (1 / 2 : K) • (rotated R L + (rotated R L).transpose)
      - (((1 / 2 : K) • (rotated R L + (rotated R L).transpose)).trace / 3) • (1 : Mat3 K)
      = rotated R ((1 / 2 : K) • (L + L.transpose) - (((1 / 2 : K) • (L + L.transpose)).trace / 3) • (1 : Mat3 K)) := by
    rw [rotated_transpose, ← rotated_add, ← rotated_smul, trace_rotated h, rotated_sub, rotated_smul (A := (1 : Mat3 K)), rotated_one h]
  unfold muIStress
  simp only [e, shearRate, dcontr_rotated h]
  split_ifs
  · rw [rotated_add, rotated_isoT h, rotated_smul]
  · exact rotated_zero.symm

/-- Trial state of Drucker-Prager in rotated axes. -/
theorem dpTrial_rotated (h : Orthogonal3 R) (fn : MathFns K) (pr : DPParams K) (L e : Mat3 K) (a b dt : K) :
    dpTrial fn pr (rotated R L) (rotated R e) a b dt =
      { dpTrial fn pr L e a b dt with
        epsETr := rotated R (dpTrial fn pr L e a b dt).epsETr, sTr := rotated R (dpTrial fn pr L e a b dt).sTr } := by
  unfold dpTrial
  simp only [symTensor_rotated, spinTensor_rotated, jaumann_rotated h, ← rotated_smul, ← rotated_add, volStrain_rotated h,
    devStrainV_rotated h, J2dev_rotated h]

theorem ite_rotated {α : Type*} (f : α → α) {c : Prop} {i1 i2 : Decidable c} {a b a' b' : α} (ha : a' = f a) (hb : b' = f b) :
    @ite α c i1 a' b' = f (@ite α c i2 a b) := by
  by_cases h : c
  · rw [if_pos h, if_pos h, ha]
  · rw [if_neg h, if_neg h, hb]

/-- **C90** (Drucker-Prager, one point). -/
theorem dpUpdate_rotated (h : Orthogonal3 R) (fn : MathFns K) (pr : DPParams K) (L e : Mat3 K) (a b rho dt : K) :
    dpUpdate fn pr (rotated R L) (rotated R e) a b rho dt =
      { dpUpdate fn pr L e a b rho dt with
        stress := rotated R (dpUpdate fn pr L e a b rho dt).stress, epsE := rotated R (dpUpdate fn pr L e a b rho dt).epsE } := by
  unfold dpUpdate
  rw [dpTrial_rotated h]
  generalize dpTrial fn pr L e a b dt = t
  let rot : DPResult K → DPResult K := fun r => { r with stress := rotated R r.stress, epsE := rotated R r.epsE }
  refine ite_rotated rot ?_ ?_
  · refine ite_rotated rot (ite_rotated rot ?_ ?_) ?_
    · simp only [dpApex, rotated_isoT h, rot]
    · simp only [dpCone, dpMulti, rotated_isoT h, rotated_add, rotated_smul, rot]
    · simp only [dpElastic, rotated_isoT h, rotated_add, rot]
  · simp only [rotated_zero, rot]

/-- Trial state of Cam-Clay in rotated axes. -/
theorem mccTrial_rotated (h : Orthogonal3 R) (fn : MathFns K) (pr : MCCParams K) (L e σ : Mat3 K) (pc : K) (σr : Mat3 K) (dt : K) :
    mccTrial fn pr (rotated R L) (rotated R e) (rotated R σ) pc (rotated R σr) dt =
      { mccTrial fn pr L e σ pc σr dt with
        deps := rotated R (mccTrial fn pr L e σ pc σr dt).deps
        epsERot := rotated R (mccTrial fn pr L e σ pc σr dt).epsERot
        s0 := rotated R (mccTrial fn pr L e σ pc σr dt).s0
        sTr := rotated R (mccTrial fn pr L e σ pc σr dt).sTr } := by
  unfold mccTrial
  simp only [symTensor_rotated, spinTensor_rotated, jaumann_rotated h, ← rotated_smul, volStrain_rotated h, mccS, qVmDev,
    devStrainV_rotated h, devStressP_rotated h, pressureOf_rotated h, ← rotated_add, J2dev_rotated h]

/-- The elementwise guard of the plastic branch scales the trial deviator. -/
theorem mcc_guard (c : K) (A : Mat3 K) :
    (fun i j => if (c • A) i j ≠ 0 then (c • A) i j else A i j : Mat3 K) = (if c = 0 then 1 else c) • A := by
  ext i j
  by_cases hc : c = 0
  · simp [hc]
  · by_cases ha : A i j = 0
    · simp [ha]
    · simp [hc, ha]

/-- A trial state seen in rotated axes. -/
def MCCTrial.rot (R : Mat3 K) (t : MCCTrial K) : MCCTrial K :=
  { t with deps := rotated R t.deps, epsERot := rotated R t.epsERot, s0 := rotated R t.s0, sTr := rotated R t.sTr }

theorem mccPlastic_rotated (h : Orthogonal3 R) (fn : MathFns K) (ops : NewtonOps K) (pr : MCCParams K) (t : MCCTrial K) (pc : K) :
    mccPlastic fn ops pr (t.rot R) pc = { mccPlastic fn ops pr t pc with
      stress := rotated R (mccPlastic fn ops pr t pc).stress, epsE := rotated R (mccPlastic fn ops pr t pc).epsE } := by
  have hx : mccNewton ops (fun x => (mccResiduals fn pr (t.rot R) pc x).res) 10 ![0, fn.log (if t.yf > 0 then pc else 2)]
      = mccNewton ops (fun x => (mccResiduals fn pr t pc x).res) 10 ![0, fn.log (if t.yf > 0 then pc else 2)] := rfl
  unfold mccPlastic
  generalize hy : mccNewton ops (fun x => (mccResiduals fn pr t pc x).res) 10 ![0, fn.log (if t.yf > 0 then pc else 2)] = y at hx
  have e : (t.rot R).yf = t.yf := rfl
  simp only [e, hx, hy]
  have ep : (mccResiduals fn pr (t.rot R) pc y).p = (mccResiduals fn pr t pc y).p := rfl
  have eK : (mccResiduals fn pr (t.rot R) pc y).Kb = (mccResiduals fn pr t pc y).Kb := rfl
  have eG : (mccResiduals fn pr (t.rot R) pc y).G = (mccResiduals fn pr t pc y).G := rfl
  obtain ⟨c, hc, hc'⟩ : ∃ c : K, (mccResiduals fn pr t pc y).s = c • t.sTr ∧
      (mccResiduals fn pr (t.rot R) pc y).s = c • rotated R t.sTr := ⟨_, rfl, rfl⟩
  have es : (t.rot R).sTr = rotated R t.sTr := rfl
  have es0 : (t.rot R).s0 = rotated R t.s0 := rfl
  have ep0 : (t.rot R).p0 = t.p0 := rfl
  have epp : (t.rot R).pPrev = t.pPrev := rfl
  simp only [ep, eK, eG, hc, hc', es, es0, ep0, epp, mcc_guard, rotated_add, rotated_smul, rotated_sub, rotated_isoT h]

/-- **C90** (modified Cam-Clay, one point). -/
theorem mccUpdate_rotated (h : Orthogonal3 R) (fn : MathFns K) (ops : NewtonOps K) (pr : MCCParams K) (L e σ : Mat3 K) (pc : K)
    (σr : Mat3 K) (v dt : K) :
    mccUpdate fn ops pr (rotated R L) (rotated R e) (rotated R σ) pc (rotated R σr) v dt =
      { mccUpdate fn ops pr L e σ pc σr v dt with
        stress := rotated R (mccUpdate fn ops pr L e σ pc σr v dt).stress
        epsE := rotated R (mccUpdate fn ops pr L e σ pc σr v dt).epsE } := by
  unfold mccUpdate
  rw [mccTrial_rotated h]
  generalize mccTrial fn pr L e σ pc σr dt = t
  let rot : MCCResult K → MCCResult K := fun r => { r with stress := rotated R r.stress, epsE := rotated R r.epsE }
  refine ite_rotated rot (ite_rotated rot ?_ ?_) ?_
  · exact mccPlastic_rotated h fn ops pr t pc
  · simp only [mccElastic, rotated_isoT h, rotated_add, rot]
  · simp only [rotated_zero, rot]

theorem ofFin_rotated {n : ℕ} (f : Fin n → Mat3 K) : ofFin 0 (fun p => rotated R (f p)) = fun i => rotated R (ofFin 0 f i) := by
  funext i
  unfold ofFin
  split_ifs
  · rfl
  · exact rotated_zero.symm

/-! ### A whole body -/

/-- **C90.** Every law of the package, applied to a body whose velocity gradients, stresses and internal tensors are seen in
rotated axes, gives the stresses and internal tensors it would have given, seen in rotated axes (and the same exception if it
fails). -/
theorem laws_isotropic {dim : ℕ} {law : Law K dim (LawState K)} (hl : LibLaw law) (h : Orthogonal3 R) {n : ℕ}
    {s s' : MPState K dim n} (hs : SeenRotated R s s') (ls : LawState K) (dt : K) :
    law.update s' (rotatedState R ls) dt =
      (law.update s ls dt).map fun r => ({ s' with stress := fun p => rotated R (r.1.stress p) }, rotatedState R r.2) := by
  have hd : ∀ p, s'.density p = s.density p := fun p => by unfold MPState.density; rw [hs.mass, hs.volume]
  cases hl with
  | elastic E nu reset =>
    simp only [elasticLaw, Except.map, hs.L, hs.stress, elasticStress_rotated h]
  | fluid fn pr reset =>
    cases ls <;> simp only [fluidLaw, rotatedState, hs.L, hs.mass, hs.volume, hs.shape, fluidStress_rotated h] <;> try rfl
    split_ifs <;> rfl
  | muI fn pr reset =>
    cases ls <;> simp only [muILaw, rotatedState, hs.L, hs.mass, hs.volume, hs.shape, muIStress_rotated h] <;> try rfl
    split_ifs <;> rfl
  | dp fn pr reset =>
    cases ls <;> simp only [dpLaw, rotatedState, hs.L, hd, dpUpdate_rotated h, ofFin_rotated] <;> rfl
  | mcc fn ops pr reset =>
    cases ls with
    | mcc pc r e =>
      cases r with
      | none => rfl
      | some r =>
        simp only [mccLaw, rotatedState, Option.map_some, hs.L, hs.stress, hd, mccUpdate_rotated h, ofFin_rotated]
        rfl
    | _ => rfl

/-- A quarter turn about the third axis and a simple-shear velocity gradient meeting the hypotheses of `laws_isotropic`: the turned
body has the shear on the other side. -/
example : ∃ R : Mat3 ℚ, Orthogonal3 R ∧ rotated R !![0, 1, 0; 0, 0, 0; 0, 0, 0] = !![0, 0, 0; -1, 0, 0; 0, 0, 0] ∧
    elasticStress 10 0 !![0, 0, 0; -1, 0, 0; 0, 0, 0] 0 1 = rotated R (elasticStress 10 0 !![0, 1, 0; 0, 0, 0; 0, 0, 0] 0 1) ∧
    elasticStress 10 0 !![0, 1, 0; 0, 0, 0; 0, 0, 0] 0 1 = (!![0, 5, 0; 5, 0, 0; 0, 0, 0] : Mat3 ℚ) := by
  refine ⟨!![0, -1, 0; 1, 0, 0; 0, 0, 1], ?_, ?_, ?_, ?_⟩
  · unfold Orthogonal3; decide +kernel
  · unfold rotated; decide +kernel
  · unfold rotated elasticStress isoT lameModulus shearModulus; decide +kernel
  · unfold elasticStress isoT lameModulus shearModulus; decide +kernel

end
end Hydrax
