import Verif.Props.Elastic
import Verif.Props.DruckerPrager
import Verif.Props.CamClaySolution
import Verif.Props.Uepi
import Verif.Props.Symmetry

/-!
# C145: elastic deformation gives back the work put into it
-/

set_option linter.unusedSectionVars false

namespace Hydrax

open Spec

namespace Spec

/-- The work that a history of steps does on a point, per unit of volume: mean of old and new stress times the strain of the step. -/
noncomputable def pathWork {S H : Type*} (stress : S → Mat3 ℝ) (strain : H → Mat3 ℝ) (upd : H → S → S) : S → List H → ℝ
  | _, [] => 0
  | s, h :: hs => ddot ((1 / 2 : ℝ) • (stress s + stress (upd h s))) (strain h) + pathWork stress strain upd (upd h s) hs

/-- The state at the end of a history. -/
def pathEnd {S H : Type*} (upd : H → S → S) (s : S) (hs : List H) : S := hs.foldl (fun s h => upd h s) s

/-- A condition on every step of a history. -/
def Along {S H : Type*} (P : H → S → Prop) (upd : H → S → S) : S → List H → Prop
  | _, [] => True
  | s, h :: hs => P h s ∧ Along P upd (upd h s) hs

/-- Shear in the plane of the first two axes. -/
def shearX : Mat3 ℝ := !![0, 1, 0; 1, 0, 0; 0, 0, 0]

/-- Pressure `p` with shear stress `c`. -/
noncomputable def shearedStress (p c : ℝ) : Mat3 ℝ := isoT p + c • shearX

/-- Strains of a closed cycle: compression, shear, expansion, shear back, and the same with the opposite shear. -/
noncomputable def clayCycle (a e : ℝ) : List (Mat3 ℝ) :=
  [isoT a, e • shearX, isoT (-a), (-e) • shearX, isoT a, (-e) • shearX, isoT (-a), e • shearX]

end Spec

section
variable {S H : Type*} {stress : S → Mat3 ℝ} {strain : H → Mat3 ℝ} {upd : H → S → S}

theorem Along.imp {P Q : H → S → Prop} (h : ∀ a s, P a s → Q a s) : ∀ {s : S} {hs : List H}, Along P upd s hs → Along Q upd s hs
  | _, [], _ => trivial
  | _, _ :: _, ⟨h1, h2⟩ => ⟨h _ _ h1, Along.imp h h2⟩

/-- A condition that an invariant implies. -/
theorem Along.invariant {P Q : H → S → Prop} {I : S → Prop} (hI : ∀ a s, I s → P a s → Q a s ∧ I (upd a s)) :
    ∀ {s : S} {hs : List H}, I s → Along P upd s hs → Along Q upd s hs ∧ I (pathEnd upd s hs)
  | _, [], i, _ => ⟨trivial, i⟩
  | s, a :: hs, i, ⟨h1, h2⟩ => by
    obtain ⟨q, j⟩ := hI a s i h1
    obtain ⟨r, k⟩ := Along.invariant hI j h2
    exact ⟨⟨q, r⟩, k⟩

theorem pathEnd_append (s : S) (a b : List H) : pathEnd upd s (a ++ b) = pathEnd upd (pathEnd upd s a) b := by
  simp only [pathEnd, List.foldl_append]

theorem pathWork_append (s : S) (a b : List H) :
    pathWork stress strain upd s (a ++ b) = pathWork stress strain upd s a + pathWork stress strain upd (pathEnd upd s a) b := by
  induction a generalizing s with
  | nil => simp [pathWork, pathEnd]
  | cons h hs ih =>
    simp only [List.cons_append, pathWork, ih]
    rw [add_assoc]; rfl

/-- A cycle that ends where it began can be repeated. -/
theorem pathWork_replicate {s : S} {c : List H} (h : pathEnd upd s c = s) (n : ℕ) :
    pathEnd upd s (List.replicate n c).flatten = s ∧
      pathWork stress strain upd s (List.replicate n c).flatten = n * pathWork stress strain upd s c := by
  induction n with
  | zero => simp [pathEnd, pathWork]
  | succ n ih =>
    rw [List.replicate_succ, List.flatten_cons, pathEnd_append, pathWork_append, h, ih.1, ih.2]
    exact ⟨rfl, by push_cast; ring⟩

theorem ddot_add_left (A B C : Mat3 ℝ) : ddot (A + B) C = ddot A C + ddot B C := by
  simp only [ddot, Fin.sum_univ_three, Matrix.add_apply]; ring

theorem ddot_add_right (A B C : Mat3 ℝ) : ddot A (B + C) = ddot A B + ddot A C := by
  simp only [ddot, Fin.sum_univ_three, Matrix.add_apply]; ring

theorem ddot_smul_left (a : ℝ) (A B : Mat3 ℝ) : ddot (a • A) B = a * ddot A B := by
  simp only [ddot, Fin.sum_univ_three, Matrix.smul_apply, smul_eq_mul]; ring

theorem ddot_smul_right (a : ℝ) (A B : Mat3 ℝ) : ddot A (a • B) = a * ddot A B := by
  simp only [ddot, Fin.sum_univ_three, Matrix.smul_apply, smul_eq_mul]; ring

theorem ddot_zero_right (A : Mat3 ℝ) : ddot A 0 = 0 := by simp [ddot]

/-- Where the stress follows the strain by a fixed symmetric stiffness, the work depends on the total strain only. -/
theorem linear_work {C : Mat3 ℝ → Mat3 ℝ} (h0 : C 0 = 0) (hadd : ∀ a b, C (a + b) = C a + C b) (hsym : ∀ a b, ddot (C a) b = ddot (C b) a)
    (s : S) (hs : List H) (h : Along (fun a s => stress (upd a s) = stress s + C (strain a)) upd s hs) :
    stress (pathEnd upd s hs) = stress s + C (hs.map strain).sum ∧ pathWork stress strain upd s hs =
      ddot (stress s) (hs.map strain).sum + 1 / 2 * ddot (C (hs.map strain).sum) (hs.map strain).sum := by
  induction hs generalizing s with
  | nil =>
    simp only [List.map_nil, List.sum_nil, h0, add_zero, pathWork, ddot_zero_right, mul_zero]
    exact ⟨rfl, trivial⟩
  | cons a hs ih =>
    obtain ⟨h1, h2⟩ := h
    obtain ⟨i1, i2⟩ := ih _ h2
    simp only [List.map_cons, List.sum_cons]
    set E := (hs.map strain).sum
    constructor
    · rw [show pathEnd upd s (a :: hs) = pathEnd upd (upd a s) hs from rfl, i1, h1, hadd, add_assoc]
    · rw [pathWork, i2, h1, hadd]
      simp only [ddot_add_left, ddot_add_right, ddot_smul_left]
      rw [hsym E (strain a)]
      ring

/-- **C145** for a fixed stiffness: a closed history leaves stress and energy as they were. -/
theorem linear_cycle {C : Mat3 ℝ → Mat3 ℝ} (h0 : C 0 = 0) (hadd : ∀ a b, C (a + b) = C a + C b) (hsym : ∀ a b, ddot (C a) b = ddot (C b) a)
    (s : S) (hs : List H) (h : Along (fun a s => stress (upd a s) = stress s + C (strain a)) upd s hs) (hz : (hs.map strain).sum = 0) :
    stress (pathEnd upd s hs) = stress s ∧ pathWork stress strain upd s hs = 0 := by
  obtain ⟨h1, h2⟩ := linear_work h0 hadd hsym s hs h
  rw [hz, h0, add_zero] at h1
  rw [hz, ddot_zero_right, ddot_zero_right, mul_zero, add_zero] at h2
  exact ⟨h1, h2⟩

theorem hooke_sym (lam G : ℝ) (a b : Mat3 ℝ) : ddot (hooke lam G a) b = ddot (hooke lam G b) a := by
  simp only [ddot, hooke, Fin.sum_univ_three]
  simp
  ring

end

/-! ### Linear elasticity -/

theorem elastic_along (E nu : ℝ) (s : Mat3 ℝ) (hs : List (Mat3 ℝ × ℝ)) : Along (fun a s => id (elasticStress E nu a.1 s a.2) =
      id s + hooke (lameModulus E nu) (shearModulus E nu) (strainInc a.1 a.2)) (fun h σ => elasticStress E nu h.1 σ h.2) s hs := by
  induction hs generalizing s with
  | nil => trivial
  | cons a hs ih =>
    refine ⟨?_, ih _⟩
    have e : strainInc a.1 a.2 = a.2 • symPart a.1 := by
      ext i j
      simp only [strainInc, symPart, Matrix.smul_apply, Matrix.add_apply, Matrix.transpose_apply, smul_eq_mul]; ring
    simp only [e]
    exact elasticStress_eq E nu a.1 s a.2

/-- **C145**, linear elasticity: every closed history of strains, in any number of steps and with any rotations, leaves the stress as it
was and takes no work. -/
theorem elastic_cycle_work (E nu : ℝ) (σ : Mat3 ℝ) (hs : List (Mat3 ℝ × ℝ)) (hz : (hs.map fun h => strainInc h.1 h.2).sum = 0) :
    pathEnd (fun h σ => elasticStress E nu h.1 σ h.2) σ hs = σ ∧
      pathWork id (fun h => strainInc h.1 h.2) (fun h σ => elasticStress E nu h.1 σ h.2) σ hs = 0 := by
  exact linear_cycle (hooke_zero _ _) (hooke_add _ _) (hooke_sym _ _) σ hs (elastic_along E nu σ hs) hz

/-- **C145**, linear elasticity: deforming a stress-free point takes work, `K, G > 0`. -/
theorem elastic_work_nonneg {E nu : ℝ} (hE : 0 < E) (h1 : -1 < nu) (h2 : nu < 1 / 2) (hs : List (Mat3 ℝ × ℝ)) :
    0 ≤ pathWork id (fun h => strainInc h.1 h.2) (fun h σ => elasticStress E nu h.1 σ h.2) 0 hs := by
  rw [(linear_work (hooke_zero _ _) (hooke_add _ _) (hooke_sym _ _) (0 : Mat3 ℝ) hs (elastic_along E nu 0 hs)).2]
  set e := (hs.map fun h => strainInc h.1 h.2).sum
  have hG : 0 < shearModulus E nu := by
    unfold shearModulus
    have : 0 < 1 + nu := by linarith
    positivity
  have hK : 0 < lameModulus E nu + 2 / 3 * shearModulus E nu := by
    have a : 0 < 1 + nu := by linarith
    have b : 0 < 1 - 2 * nu := by linarith
    have : lameModulus E nu + 2 / 3 * shearModulus E nu = E / (3 * (1 - 2 * nu)) := by
      unfold lameModulus shearModulus
      have b' := b.ne'
      have a' := a.ne'
      rw [div_add' _ _ _ (by positivity), div_eq_div_iff (by positivity) (by positivity)]
      field_simp
      ring
    rw [this]; positivity
  have h3 : ddot (id (0 : Mat3 ℝ)) e = 0 := by simp [ddot]
  rw [h3, zero_add]
  set l := lameModulus E nu
  set G := shearModulus E nu
  have : ddot (hooke l G e) e = (l + 2 / 3 * G) * (e 0 0 + e 1 1 + e 2 2) ^ 2 +
      2 * G * ((e 0 0 - e 1 1) ^ 2 / 3 + (e 1 1 - e 2 2) ^ 2 / 3 + (e 2 2 - e 0 0) ^ 2 / 3 +
        e 0 1 ^ 2 + e 0 2 ^ 2 + e 1 0 ^ 2 + e 1 2 ^ 2 + e 2 0 ^ 2 + e 2 1 ^ 2) := by
    simp only [ddot, hooke, Fin.sum_univ_three]
    simp
    ring
  rw [this]
  positivity

/-! ### Drucker-Prager -/

theorem spin_zero {e : Mat3 ℝ} (he : e.IsSymm) (dt : ℝ) : spinTensor (dt⁻¹ • e) = 0 := by
  rw [spinTensor, Matrix.transpose_smul, he.eq, sub_self, smul_zero]

theorem sym_strain {e : Mat3 ℝ} (he : e.IsSymm) {dt : ℝ} (hdt : dt ≠ 0) : dt • symTensor (dt⁻¹ • e) = e := by
  rw [symTensor, Matrix.transpose_smul, he.eq, ← two_smul ℝ, smul_smul, smul_smul, smul_smul,
    show dt * (1 / 2) * 2 * dt⁻¹ = 1 by field_simp, one_smul]

theorem jaumann_no_spin (A : Mat3 ℝ) (dt : ℝ) : jaumann A 0 dt = A := by simp [jaumann]

theorem dp_hooke (pr : DPParams ℝ) (p0 : ℝ) (e : Mat3 ℝ) : hooke (pr.bulk - 2 / 3 * pr.shear) pr.shear e + isoT p0 =
    (2 * pr.shear) • dev e + isoT (pr.bulk * e.trace + p0) := by
  ext i j
  simp only [hooke, dev, meanStress, Matrix.add_apply, Matrix.smul_apply, isoT_apply, smul_eq_mul, trace3]
  split_ifs <;> ring

/-- An elastic step without spin. -/
theorem dp_elastic_strained (pr : DPParams ℝ) (p0 : ℝ) {dt : ℝ} (hdt : dt ≠ 0) {e : Mat3 ℝ} {rho : ℝ} (s : DPResult ℝ) (hsym : e.IsSymm)
    (hr : pr.rho0 ≤ rho) (hy : dpYield pr.mu1 pr.mu2 (pr.c0 + pr.H * s.epsP)
      (hooke (pr.bulk - 2 / 3 * pr.shear) pr.shear (s.epsE + e) + isoT p0) ≤ -(1 / 10 ^ 6)) :
    dpUpdate realFns pr (dt⁻¹ • e) s.epsE s.epsP p0 rho dt =
      { stress := hooke (pr.bulk - 2 / 3 * pr.shear) pr.shear (s.epsE + e) + isoT p0, epsE := s.epsE + e, epsP := s.epsP } := by
  have e1 : (dpTrial realFns pr (dt⁻¹ • e) s.epsE s.epsP p0 dt).epsETr = s.epsE + e := by
    simp only [dpTrial]
    rw [spin_zero hsym, jaumann_no_spin, sym_strain hsym hdt]
  have e2 : (dpTrial realFns pr (dt⁻¹ • e) s.epsE s.epsP p0 dt).sTr = (2 * pr.shear) • dev (s.epsE + e) := by
    rw [dpTrial_sTr, e1]
  have e3 : (dpTrial realFns pr (dt⁻¹ • e) s.epsE s.epsP p0 dt).pTr = pr.bulk * (s.epsE + e).trace + p0 := by
    rw [← e1]; rfl
  have hmean : meanStress ((2 * pr.shear) • dev (s.epsE + e)) = 0 := by rw [meanStress_smul, meanStress_dev, mul_zero]
  have hyf : (dpTrial realFns pr (dt⁻¹ • e) s.epsE s.epsP p0 dt).yf ≤ 0 := by
    have : (dpTrial realFns pr (dt⁻¹ • e) s.epsE s.epsP p0 dt).yf =
        Real.sqrt (max (J2dev (dpTrial realFns pr (dt⁻¹ • e) s.epsE s.epsP p0 dt).sTr) (1 / 10 ^ 12)) -
          pr.mu1 * (dpTrial realFns pr (dt⁻¹ • e) s.epsE s.epsP p0 dt).pTr - pr.mu2 * (pr.c0 + pr.H * s.epsP) := rfl
    rw [this, e2, e3]
    rw [dpYield, dp_hooke, mean_add_iso hmean, J2_add_iso hmean] at hy
    rw [J2dev_eq]
    set j := ddot ((2 * pr.shear) • dev (s.epsE + e)) ((2 * pr.shear) • dev (s.epsE + e)) / 2
    have hj0 : 0 ≤ j := div_nonneg (ddot_self_nonneg _) (by norm_num)
    have : Real.sqrt (max j (1 / 10 ^ 12)) ≤ Real.sqrt j + 1 / 10 ^ 6 := by
      have h0 := Real.sqrt_nonneg j
      rw [Real.sqrt_le_left (by positivity)]
      refine max_le ?_ ?_ <;> nlinarith [Real.sq_sqrt hj0]
    linarith
  unfold dpUpdate
  simp only
  rw [if_pos hr, if_neg (not_lt.mpr hyf), dpElastic, e1, e2, e3, dp_hooke]

/-- **C145**, Drucker-Prager: closed elastic paths without spin take no work and end at the stress at which they began. -/
theorem dp_elastic_cycle (pr : DPParams ℝ) (p0 dt : ℝ) (hdt : dt ≠ 0) (s : DPResult ℝ)
    (hc : s.stress = hooke (pr.bulk - 2 / 3 * pr.shear) pr.shear s.epsE + isoT p0) (hs : List (Mat3 ℝ × ℝ))
    (hel : Along (fun h s => h.1.IsSymm ∧ pr.rho0 ≤ h.2 ∧
      dpYield pr.mu1 pr.mu2 (pr.c0 + pr.H * s.epsP) (hooke (pr.bulk - 2 / 3 * pr.shear) pr.shear (s.epsE + h.1) + isoT p0) ≤ -(1 / 10 ^ 6))
      (fun h s => dpUpdate realFns pr (dt⁻¹ • h.1) s.epsE s.epsP p0 h.2 dt) s hs) (hz : (hs.map Prod.fst).sum = 0) :
    (pathEnd (fun h s => dpUpdate realFns pr (dt⁻¹ • h.1) s.epsE s.epsP p0 h.2 dt) s hs).stress = s.stress ∧
      pathWork DPResult.stress Prod.fst (fun h s => dpUpdate realFns pr (dt⁻¹ • h.1) s.epsE s.epsP p0 h.2 dt) s hs = 0 := by
  obtain ⟨hlin, -⟩ := Along.invariant (upd := fun (h : Mat3 ℝ × ℝ) (s : DPResult ℝ) => dpUpdate realFns pr (dt⁻¹ • h.1) s.epsE s.epsP p0 h.2 dt)
    (Q := fun h s => (dpUpdate realFns pr (dt⁻¹ • h.1) s.epsE s.epsP p0 h.2 dt).stress =
      s.stress + hooke (pr.bulk - 2 / 3 * pr.shear) pr.shear h.1)
    (I := fun s => s.stress = hooke (pr.bulk - 2 / 3 * pr.shear) pr.shear s.epsE + isoT p0)
    (fun h s i ⟨a, b, c⟩ => by
      rw [dp_elastic_strained pr p0 hdt s a b c]
      exact ⟨by simp only [i, hooke_add]; abel, rfl⟩) hc hel
  exact linear_cycle (hooke_zero _ _) (hooke_add _ _) (hooke_sym _ _) s hs hlin hz

/-! ### Cam-Clay -/

theorem strainInc_strained {e : Mat3 ℝ} (he : e.IsSymm) {dt : ℝ} (hdt : dt ≠ 0) : strainInc (dt⁻¹ • e) dt = e := by
  rw [← strainInc_eq]; exact sym_strain he hdt

theorem jaumannRotated_strained {e : Mat3 ℝ} (he : e.IsSymm) (σ : Mat3 ℝ) (dt : ℝ) : jaumannRotated (dt⁻¹ • e) σ dt = σ := by
  rw [← jaumannRotated_eq, spin_zero he, jaumann_no_spin]

theorem shearX_symm : shearX.IsSymm := by
  ext i j; fin_cases i <;> fin_cases j <;> rfl

theorem shearX_mean (c : ℝ) : meanStress (c • shearX) = 0 := by simp [meanStress, shearX]

theorem sheared_mean (p c : ℝ) : meanStress (shearedStress p c) = p := by
  rw [shearedStress, add_comm, mean_add_iso (shearX_mean c)]

theorem sheared_dev (p c : ℝ) : dev (shearedStress p c) = c • shearX := by
  rw [shearedStress, add_comm, dev_add_iso (shearX_mean c)]

theorem sheared_q (p c : ℝ) : qVM (shearedStress p c) ^ 2 = 3 * c ^ 2 := by
  rw [qVM_sq, J2, sheared_dev]
  simp [ddot, shearX, Fin.sum_univ_three]
  ring

theorem sheared_F (M pc p c : ℝ) : mccF M pc (shearedStress p c) = 3 * c ^ 2 / M ^ 2 + p ^ 2 - pc * p := by
  rw [mccF, sheared_q, sheared_mean]

theorem sheared_zero (p : ℝ) : shearedStress p 0 = isoT p := by rw [shearedStress, zero_smul, add_zero]

theorem sheared_work (p p' c c' a e : ℝ) :
    ddot ((1 / 2 : ℝ) • (shearedStress p c + shearedStress p' c')) (isoT a) = 3 / 2 * (p + p') * a ∧
      ddot ((1 / 2 : ℝ) • (shearedStress p c + shearedStress p' c')) (e • shearX) = (c + c') * e := by
  constructor <;>
  · simp [ddot, shearedStress, shearX, isoT_apply, Fin.sum_univ_three]
    ring

/-- The cycle, for any law whose pressure doubles under the strain `a` and whose shear modulus is `g` times the pressure. -/
theorem cycle_work {S : Type*} {stress : S → Mat3 ℝ} {upd : Mat3 ℝ × ℝ → S → S} {st : ℝ → ℝ → Mat3 ℝ → S}
    (hst : ∀ p c ε, stress (st p c ε) = shearedStress p c) {a e p g : ℝ} (v : ℕ → ℝ) (ε : Mat3 ℝ)
    (up : ∀ i c ε, |c| ≤ 4 * g * p * |e| → upd (isoT a, v i) (st p c ε) = st (2 * p) c (ε + isoT a))
    (down : ∀ i c ε, |c| ≤ 4 * g * p * |e| → upd (isoT (-a), v i) (st (2 * p) c ε) = st p c (ε + isoT (-a)))
    (shear : ∀ i c ε e' q, (q = p ∨ q = 2 * p) → |c + 2 * (g * q) * e'| ≤ 4 * g * p * |e| →
      upd (e' • shearX, v i) (st q c ε) = st q (c + 2 * (g * q) * e') (ε + e' • shearX)) (hg : 0 ≤ g * p) :
    pathEnd upd (st p 0 ε) ((clayCycle a e).zipIdx.map fun x => (x.1, v x.2)) = st p 0 ε ∧
      pathWork stress Prod.fst upd (st p 0 ε) ((clayCycle a e).zipIdx.map fun x => (x.1, v x.2)) = -(4 * (g * p) * e ^ 2) := by
  set k := g * p * e with hk
  have hb : 4 * g * p * |e| = 4 * |k| := by rw [hk, abs_mul, abs_of_nonneg hg]; ring
  rw [hb] at up down shear
  have hk0 := abs_nonneg k
  have b : ∀ m : ℝ, |m| ≤ 4 → |m * k| ≤ 4 * |k| := fun m hm => by
    rw [abs_mul]; exact mul_le_mul_of_nonneg_right hm hk0
  have s1 := up 0 0 ε (by rw [abs_zero]; positivity)
  have s2 := shear 1 0 (ε + isoT a) e (2 * p) (Or.inr rfl) (by
    rw [show 0 + 2 * (g * (2 * p)) * e = 4 * k by rw [hk]; ring]; exact b 4 (by norm_num))
  rw [show 0 + 2 * (g * (2 * p)) * e = 4 * k by rw [hk]; ring] at s2
  have s3 := down 2 (4 * k) (ε + isoT a + e • shearX) (b 4 (by norm_num))
  have s4 := shear 3 (4 * k) (ε + isoT a + e • shearX + isoT (-a)) (-e) p (Or.inl rfl) (by
    rw [show 4 * k + 2 * (g * p) * -e = 2 * k by rw [hk]; ring]; exact b 2 (by norm_num))
  rw [show 4 * k + 2 * (g * p) * -e = 2 * k by rw [hk]; ring] at s4
  have s5 := up 4 (2 * k) (ε + isoT a + e • shearX + isoT (-a) + -e • shearX) (b 2 (by norm_num))
  have s6 := shear 5 (2 * k) (ε + isoT a + e • shearX + isoT (-a) + -e • shearX + isoT a) (-e) (2 * p) (Or.inr rfl) (by
    rw [show 2 * k + 2 * (g * (2 * p)) * -e = -2 * k by rw [hk]; ring]; exact b (-2) (by norm_num))
  rw [show 2 * k + 2 * (g * (2 * p)) * -e = -2 * k by rw [hk]; ring] at s6
  have s7 := down 6 (-2 * k) (ε + isoT a + e • shearX + isoT (-a) + -e • shearX + isoT a + -e • shearX) (b (-2) (by norm_num))
  have s8 := shear 7 (-2 * k) (ε + isoT a + e • shearX + isoT (-a) + -e • shearX + isoT a + -e • shearX + isoT (-a)) e p (Or.inl rfl) (by
    rw [show -2 * k + 2 * (g * p) * e = 0 by rw [hk]; ring, abs_zero]; positivity)
  rw [show -2 * k + 2 * (g * p) * e = 0 by rw [hk]; ring] at s8
  have hiso : isoT (-a) = -isoT a := by rw [isoT, isoT, neg_smul]
  have hend : ε + isoT a + e • shearX + isoT (-a) + -e • shearX + isoT a + -e • shearX + isoT (-a) + e • shearX = ε := by
    rw [hiso, neg_smul]; abel
  rw [hend] at s8
  have hl : (clayCycle a e).zipIdx.map (fun x => (x.1, v x.2)) = [(isoT a, v 0), (e • shearX, v 1), (isoT (-a), v 2), ((-e) • shearX, v 3),
    (isoT a, v 4), ((-e) • shearX, v 5), (isoT (-a), v 6), (e • shearX, v 7)] := rfl
  rw [hl]
  constructor
  · simp only [pathEnd, List.foldl_cons, List.foldl_nil, s1, s2, s3, s4, s5, s6, s7, s8]
  · simp only [pathWork, s1, s2, s3, s4, s5, s6, s7, s8, hst, (sheared_work _ _ _ _ _ 0).1, (sheared_work _ _ _ _ 0 _).2]
    rw [hk]; ring

theorem mcc_elastic_strained (ops : NewtonOps ℝ) (pr : MCCParams ℝ) (σref : Mat3 ℝ) {e : Mat3 ℝ} (he : e.IsSymm) {dt : ℝ} (hdt : dt ≠ 0)
    {v : ℝ} (hv : v ≤ pr.N * (999999 / 1000000)) (s : MCCResult ℝ) (hmin : pr.pMin ≤ meanStress s.stress)
    (hy : mccF pr.M s.pc (mccTrialStress pr (dt⁻¹ • e) s.stress dt) ≤ 0) :
    mccUpdate realFns ops pr (dt⁻¹ • e) s.epsE s.stress s.pc σref v dt =
      { stress := mccTrialStress pr (dt⁻¹ • e) s.stress dt, epsE := s.epsE + e, pc := s.pc } := by
  rw [← mccTrial_yf_spec pr _ s.epsE s.stress s.pc σref dt hmin] at hy
  unfold mccUpdate
  simp only
  rw [if_pos hv, if_neg (not_lt.mpr hy), mccElastic, mccTrial_stress _ _ _ _ _ _ _ hmin]
  congr 1
  simp only [mccTrial]
  rw [spin_zero he, jaumann_no_spin, sym_strain he hdt]

theorem mccTrial_iso (pr : MCCParams ℝ) {dt : ℝ} (hdt : dt ≠ 0) (p c a : ℝ) :
    mccTrialStress pr (dt⁻¹ • isoT a) (shearedStress p c) dt = shearedStress (p * Real.exp (3 * a / pr.kap)) c := by
  have hs : (isoT a : Mat3 ℝ).IsSymm := by unfold isoT; exact Matrix.IsSymm.smul Matrix.isSymm_one a
  unfold mccTrialStress
  simp only [strainInc_strained hs hdt, jaumannRotated_strained hs, sheared_dev, sheared_mean, dev_isoT, smul_zero, add_zero]
  rw [shearedStress, add_comm, show (isoT a).trace = 3 * a by rw [trace3]; simp only [isoT_apply, if_true]; ring]
  rfl

theorem mccTrial_shear (pr : MCCParams ℝ) (hK : pr.KMin = none ∧ pr.KMax = none) {dt : ℝ} (hdt : dt ≠ 0) {p : ℝ} (h1 : 1 ≤ p)
    (hp : pr.pMin ≤ p) (c e : ℝ) : mccTrialStress pr (dt⁻¹ • (e • shearX)) (shearedStress p c) dt =
      shearedStress p (c + 2 * (mccShear pr.nu (1 / pr.kap) * p) * e) := by
  have hs : (e • shearX).IsSymm := shearX_symm.smul e
  have ht : (e • shearX).trace = 0 := by
    have := shearX_mean e
    rw [meanStress_trace] at this
    linarith
  have hd : dev (e • shearX) = e • shearX := by
    have := dev_add_iso (shearX_mean e) 0
    rwa [show isoT (0 : ℝ) = 0 by simp [isoT], add_zero] at this
  unfold mccTrialStress
  simp only [strainInc_strained hs hdt, jaumannRotated_strained hs, sheared_dev, sheared_mean, ht, hd, zero_div, Real.exp_zero, mul_one]
  rw [max_eq_left hp, mccBulk, hK.1, hK.2, max_eq_left h1]
  simp only [Option.elim, id]
  rw [shearedStress, add_comm, smul_smul, ← add_smul, isoT, mccShear, mccShear]
  congr 3
  ring

/-- **C145**, Cam-Clay, refuted: elastic steps create energy. The cycle compression, shear, expansion, shear back, and the same with the
opposite shear, lies inside the yield surface and ends in the state in which it began; each time around it gives off the work
`4 G e²`, `G` being the shear modulus at the start and `e` the shear strain. -/
theorem mcc_cycle_gains (ops : NewtonOps ℝ) {pr : MCCParams ℝ} (h : pr.Clay) (hK : pr.KMin = none ∧ pr.KMax = none) (σref ε : Mat3 ℝ)
    {p pc dt e : ℝ} (h1 : 1 ≤ p) (hmin : pr.pMin ≤ p) (hpc : 4 * p ≤ pc) (hdt : dt ≠ 0) (he : 4 * mccShear pr.nu (1 / pr.kap) * |e| ≤ pr.M)
    {v : ℕ → ℝ} (hv : ∀ i, v i ≤ pr.N * (999999 / 1000000)) (n : ℕ) :
    let upd := fun (h : Mat3 ℝ × ℝ) (s : MCCResult ℝ) => mccUpdate realFns ops pr (dt⁻¹ • h.1) s.epsE s.stress s.pc σref h.2 dt
    let s0 : MCCResult ℝ := { stress := isoT p, epsE := ε, pc := pc }
    let path := (List.replicate n ((clayCycle (pr.kap * Real.log 2 / 3) e).zipIdx.map fun x => (x.1, v x.2))).flatten
    pathEnd upd s0 path = s0 ∧
      pathWork MCCResult.stress Prod.fst upd s0 path = -(n * (4 * (mccShear pr.nu (1 / pr.kap) * p) * e ^ 2)) := by
  intro upd s0 path
  have hkap := h.kap
  have hM := h.M
  set g := mccShear pr.nu (1 / pr.kap) with hg
  have hg0 : 0 ≤ g := by
    rw [hg, mccShear]
    have : 0 < 1 - 2 * pr.nu := by linarith [h.nuHi]
    have : 0 < 1 + pr.nu := by linarith [h.nuLo]
    positivity
  have hexp : 3 * (pr.kap * Real.log 2 / 3) / pr.kap = Real.log 2 := by field_simp
  have hF : ∀ q c, (q = p ∨ q = 2 * p) → |c| ≤ 4 * g * p * |e| → mccF pr.M pc (shearedStress q c) ≤ 0 := by
    intro q c hq hc
    rw [sheared_F]
    have hc2 : |c| ≤ pr.M * p := hc.trans (by nlinarith)
    have hc3 : c ^ 2 / pr.M ^ 2 ≤ p ^ 2 := by
      rw [div_le_iff₀ (by positivity), ← sq_abs]
      have := mul_self_le_mul_self (abs_nonneg c) hc2
      nlinarith
    rw [mul_div_assoc]
    rcases hq with rfl | rfl <;> nlinarith
  have key := cycle_work (stress := MCCResult.stress) (upd := upd)
    (st := fun p c ε => { stress := shearedStress p c, epsE := ε, pc := pc }) (fun _ _ _ => rfl) (a := pr.kap * Real.log 2 / 3) (e := e)
    (p := p) (g := g) v ε
    (fun i c ε hc => by
      have ht := mccTrial_iso pr hdt p c (pr.kap * Real.log 2 / 3)
      rw [hexp, Real.exp_log (by norm_num), mul_comm p 2] at ht
      have := mcc_elastic_strained ops pr σref (isoT_symm (pr.kap * Real.log 2 / 3)) hdt (hv i)
        { stress := shearedStress p c, epsE := ε, pc := pc } (by simpa only [sheared_mean] using hmin) (by
          simp only [ht]; exact hF _ _ (Or.inr rfl) hc)
      simp only [ht] at this
      exact this)
    (fun i c ε hc => by
      have ht := mccTrial_iso pr hdt (2 * p) c (-(pr.kap * Real.log 2 / 3))
      rw [show 3 * -(pr.kap * Real.log 2 / 3) / pr.kap = -Real.log 2 by
        rw [mul_neg, neg_div, hexp], Real.exp_neg, Real.exp_log (by norm_num),
        show 2 * p * (2 : ℝ)⁻¹ = p by ring] at ht
      have := mcc_elastic_strained ops pr σref (isoT_symm (-(pr.kap * Real.log 2 / 3))) hdt (hv i)
        { stress := shearedStress (2 * p) c, epsE := ε, pc := pc } (by simp only [sheared_mean]; linarith) (by
          simp only [ht]; exact hF _ _ (Or.inl rfl) hc)
      simp only [ht] at this
      exact this)
    (fun i c ε e' q hq hc => by
      have hq1 : 1 ≤ q ∧ pr.pMin ≤ q := by rcases hq with rfl | rfl <;> constructor <;> linarith
      have ht := mccTrial_shear pr hK hdt hq1.1 hq1.2 c e'
      have := mcc_elastic_strained ops pr σref (shearX_symm.smul e') hdt (hv i)
        { stress := shearedStress q c, epsE := ε, pc := pc } (by simp only [sheared_mean]; exact hq1.2) (by
          simp only [ht]; exact hF _ _ hq hc)
      simp only [ht] at this
      exact this) (by positivity)
  simp only [sheared_zero] at key
  have := pathWork_replicate (stress := MCCResult.stress) (strain := Prod.fst) key.1 n
  refine ⟨this.1, this.2.trans ?_⟩
  rw [key.2]; ring

/-- **C145**, Cam-Clay, refuted: there is no bound on the energy that an elastic closed path gives off. -/
theorem mcc_energy_unbounded (ops : NewtonOps ℝ) {pr : MCCParams ℝ} (h : pr.Clay) (hK : pr.KMin = none ∧ pr.KMax = none) (σref ε : Mat3 ℝ)
    {p pc dt v : ℝ} (h1 : 1 ≤ p) (hmin : pr.pMin ≤ p) (hpc : 4 * p ≤ pc) (hdt : dt ≠ 0) (hv : v ≤ pr.N * (999999 / 1000000)) (E : ℝ) :
    let upd := fun (h : Mat3 ℝ × ℝ) (s : MCCResult ℝ) => mccUpdate realFns ops pr (dt⁻¹ • h.1) s.epsE s.stress s.pc σref h.2 dt
    let s0 : MCCResult ℝ := { stress := isoT p, epsE := ε, pc := pc }
    ∃ path : List (Mat3 ℝ × ℝ), pathEnd upd s0 path = s0 ∧ pathWork MCCResult.stress Prod.fst upd s0 path < -E := by
  intro upd s0
  have hg : 0 < mccShear pr.nu (1 / pr.kap) := by
    rw [mccShear]
    have : 0 < 1 - 2 * pr.nu := by linarith [h.nuHi]
    have : 0 < 1 + pr.nu := by linarith [h.nuLo]
    have := h.kap
    positivity
  have hM := h.M
  set g := mccShear pr.nu (1 / pr.kap)
  set e := pr.M / (4 * g) with he
  have he0 : 0 < e := by positivity
  have hw : 0 < 4 * (g * p) * e ^ 2 := by positivity
  obtain ⟨n, hn⟩ := exists_nat_gt (E / (4 * (g * p) * e ^ 2))
  obtain ⟨r1, r2⟩ := mcc_cycle_gains ops h hK σref ε (pc := pc) (dt := dt) (e := e) h1 hmin hpc hdt
    (by rw [abs_of_pos he0, he]; exact le_of_eq (by change 4 * g * (pr.M / (4 * g)) = pr.M; field_simp)) (v := fun _ => v) (fun _ => hv) n
  refine ⟨_, r1, r2.trans_lt ?_⟩
  rw [neg_lt_neg_iff]
  rwa [div_lt_iff₀ hw] at hn

/-- **C145**, Cam-Clay, what holds: closed elastic paths without change of volume take no work and end at the stress at which they
began. -/
theorem mcc_isochoric_cycle_partial (ops : NewtonOps ℝ) (pr : MCCParams ℝ) (σref : Mat3 ℝ) {dt : ℝ} (hdt : dt ≠ 0) (s : MCCResult ℝ)
    (hmin : pr.pMin ≤ meanStress s.stress) (hs : List (Mat3 ℝ × ℝ))
    (hel : Along (fun h s => h.1.IsSymm ∧ h.1.trace = 0 ∧ h.2 ≤ pr.N * (999999 / 1000000) ∧
      mccF pr.M s.pc (mccTrialStress pr (dt⁻¹ • h.1) s.stress dt) ≤ 0)
      (fun h s => mccUpdate realFns ops pr (dt⁻¹ • h.1) s.epsE s.stress s.pc σref h.2 dt) s hs) (hz : (hs.map Prod.fst).sum = 0) :
    (pathEnd (fun h s => mccUpdate realFns ops pr (dt⁻¹ • h.1) s.epsE s.stress s.pc σref h.2 dt) s hs).stress = s.stress ∧
      pathWork MCCResult.stress Prod.fst (fun h s => mccUpdate realFns ops pr (dt⁻¹ • h.1) s.epsE s.stress s.pc σref h.2 dt) s hs = 0 := by
  set p := meanStress s.stress with hp
  set G := mccShear pr.nu (mccBulk pr.kap pr.KMin pr.KMax p) with hG
  obtain ⟨hlin, -⟩ := Along.invariant
    (upd := fun (h : Mat3 ℝ × ℝ) (s : MCCResult ℝ) => mccUpdate realFns ops pr (dt⁻¹ • h.1) s.epsE s.stress s.pc σref h.2 dt)
    (Q := fun h s => (mccUpdate realFns ops pr (dt⁻¹ • h.1) s.epsE s.stress s.pc σref h.2 dt).stress = s.stress + hooke 0 G h.1)
    (I := fun s => meanStress s.stress = p)
    (fun h s i ⟨a, t, b, c⟩ => by
      rw [mcc_elastic_strained ops pr σref a hdt b s (by rw [i]; exact hmin) c]
      have e1 : mccTrialStress pr (dt⁻¹ • h.1) s.stress dt = s.stress + hooke 0 G h.1 := by
        unfold mccTrialStress
        simp only [strainInc_strained a hdt, jaumannRotated_strained a, t, zero_div, Real.exp_zero, mul_one]
        have hm : meanStress h.1 = 0 := by rw [meanStress_trace, t, zero_div]
        have hd : dev h.1 = h.1 := by
          have := dev_add_iso hm 0
          rwa [show isoT (0 : ℝ) = 0 by simp [isoT], add_zero] at this
        have h2 : hooke 0 G h.1 = (2 * G) • h.1 := by
          ext i j; simp [hooke]
        rw [hd, i, max_eq_left hmin, ← hG, h2, add_right_comm]
        congr 1
        rw [← i]; exact dev_add_mean s.stress
      refine ⟨e1, ?_⟩
      have h2 : hooke 0 G h.1 = (2 * G) • h.1 := by
        ext i j; simp [hooke]
      simp only [e1]
      rw [meanStress_add, i, h2, meanStress_smul, meanStress_trace, t]; ring) rfl hel
  exact linear_cycle (hooke_zero _ _) (hooke_add _ _) (hooke_sym _ _) s hs hlin hz

/-! ### Inertial clay -/

theorem uepi_elastic_strained (ops : NewtonOps ℝ) (pr : UepiParams ℝ) (σref : Mat3 ℝ) {e : Mat3 ℝ} (he : e.IsSymm) {dt : ℝ} (hdt : dt ≠ 0)
    {p c q : ℝ} (ε : Mat3 ℝ) (ps : ℝ) {d : ℝ} (ht : q = p * Real.exp (e.trace / pr.kap))
    (hs : c • shearX + (2 * uG pr.nu (uK pr.kap (1 / 2 * (p + q)))) • dev e = d • shearX)
    (hy : 3 * d ^ 2 / pr.Mcsl ^ 2 + q ^ 2 - 2 * ps * q ≤ 0) :
    uepiUpdate realFns ops pr σref (dt⁻¹ • e) dt { stress := shearedStress p c, epsE := ε, ps := ps, I := 1 / 10 ^ 22 } =
      { stress := shearedStress q d, epsE := ε + e, ps := ps, I := 1 / 10 ^ 22 } := by
  set st : UepiState ℝ := { stress := shearedStress p c, epsE := ε, ps := ps, I := 1 / 10 ^ 22 }
  have e1 : (uepiTrial realFns pr (dt⁻¹ • e) st σref dt).pTr = q := by
    rw [uepiTrial_pTr, strainInc_strained he hdt, ht]
    simp only [st, sheared_mean]
  have e0 : (uepiTrial realFns pr (dt⁻¹ • e) st σref dt).pPrev = p := by
    rw [uepiTrial_pPrev]; simp only [st, sheared_mean]
  have eG : (uepiTrial realFns pr (dt⁻¹ • e) st σref dt).Gc = uG pr.nu (uK pr.kap (1 / 2 * (p + q))) := by
    rw [← e0, ← e1]; rfl
  have e2 : (uepiTrial realFns pr (dt⁻¹ • e) st σref dt).sTr = d • shearX := by
    rw [uepiTrial_sTr, eG, strainInc_strained he hdt, jaumannRotated_strained he]
    simp only [st, sheared_dev]
    exact hs
  have hq2 : (uepiTrial realFns pr (dt⁻¹ • e) st σref dt).qTr ^ 2 = 3 * d ^ 2 := by
    rw [uepiTrial_qTr, e2, show d • shearX = shearedStress 0 d by simp [shearedStress, isoT], sheared_q]
  have hyf : (uepiTrial realFns pr (dt⁻¹ • e) st σref dt).yf ≤ 0 := by
    have : (uepiTrial realFns pr (dt⁻¹ • e) st σref dt).yf = uYield (uepiTrial realFns pr (dt⁻¹ • e) st σref dt).pTr ps
      (uepiTrial realFns pr (dt⁻¹ • e) st σref dt).qTr pr.Mcsl 1 := rfl
    rw [this, uYield]
    rw [e1, ← pow_two, hq2, mul_one, ← pow_two]
    linarith
  unfold uepiUpdate
  simp only
  rw [if_neg (not_lt.mpr hyf), uepiElastic, e1, e2]
  simp only [st]
  congr 1
  · rw [shearedStress, add_comm]
  · simp only [uepiTrial]
    rw [spin_zero he, jaumann_no_spin, sym_strain he hdt]

/-- **C145**, inertial clay, refuted by the same cycle. -/
theorem uepi_cycle_gains (ops : NewtonOps ℝ) {pr : UepiParams ℝ} (h : pr.Good) (σref ε : Mat3 ℝ) {p ps dt e : ℝ} (hp : 0 < p)
    (hps : 2 * p ≤ ps) (hdt : dt ≠ 0) (he : 4 * mccShear pr.nu (1 / pr.kap) * |e| ≤ pr.Mcsl) (n : ℕ) :
    let upd := fun (h : Mat3 ℝ × ℝ) (s : UepiState ℝ) => uepiUpdate realFns ops pr σref (dt⁻¹ • h.1) dt s
    let s0 : UepiState ℝ := { stress := isoT p, epsE := ε, ps := ps, I := 1 / 10 ^ 22 }
    let path := (List.replicate n ((clayCycle (pr.kap * Real.log 2 / 3) e).zipIdx.map fun x => (x.1, (0 : ℝ)))).flatten
    pathEnd upd s0 path = s0 ∧
      pathWork UepiState.stress Prod.fst upd s0 path = -(n * (4 * (mccShear pr.nu (1 / pr.kap) * p) * e ^ 2)) := by
  intro upd s0 path
  have hkap := h.kap
  have hM := h.Mcsl
  set g := mccShear pr.nu (1 / pr.kap) with hg
  have hg0 : 0 ≤ g := by
    rw [hg, mccShear]
    have : 0 < 1 - 2 * pr.nu := by linarith [h.nuHi]
    have : 0 < 1 + pr.nu := by linarith [h.nuLo]
    positivity
  have hexp : 3 * (pr.kap * Real.log 2 / 3) / pr.kap = Real.log 2 := by field_simp
  have htr : ∀ a : ℝ, (isoT a).trace = 3 * a := fun a => by rw [trace3]; simp only [isoT_apply, if_true]; ring
  have hF : ∀ q c, (q = p ∨ q = 2 * p) → |c| ≤ 4 * g * p * |e| → 3 * c ^ 2 / pr.Mcsl ^ 2 + q ^ 2 - 2 * ps * q ≤ 0 := by
    intro q c hq hc
    have hc2 : |c| ≤ pr.Mcsl * p := hc.trans (by nlinarith)
    have hc3 : c ^ 2 / pr.Mcsl ^ 2 ≤ p ^ 2 := by
      rw [div_le_iff₀ (by positivity), ← sq_abs]
      have := mul_self_le_mul_self (abs_nonneg c) hc2
      nlinarith
    rw [mul_div_assoc]
    rcases hq with rfl | rfl <;> nlinarith
  have key := cycle_work (stress := UepiState.stress) (upd := upd)
    (st := fun p c ε => { stress := shearedStress p c, epsE := ε, ps := ps, I := 1 / 10 ^ 22 }) (fun _ _ _ => rfl)
    (a := pr.kap * Real.log 2 / 3) (e := e) (p := p) (g := g) (fun _ => 0) ε
    (fun i c ε hc => uepi_elastic_strained ops pr σref (isoT_symm (pr.kap * Real.log 2 / 3)) hdt ε ps
      (by rw [htr, hexp, Real.exp_log (by norm_num)]; ring) (by rw [dev_isoT, smul_zero, add_zero]) (hF _ _ (Or.inr rfl) hc))
    (fun i c ε hc => uepi_elastic_strained ops pr σref (isoT_symm (-(pr.kap * Real.log 2 / 3))) hdt ε ps
      (by rw [htr, mul_neg, neg_div, hexp, Real.exp_neg, Real.exp_log (by norm_num)]; ring)
      (by rw [dev_isoT, smul_zero, add_zero]) (hF _ _ (Or.inl rfl) hc))
    (fun i c ε e' q hq hc => by
      have ht : (e' • shearX).trace = 0 := by
        have := shearX_mean e'
        rw [meanStress_trace] at this
        linarith
      have hd : dev (e' • shearX) = e' • shearX := by
        have := dev_add_iso (shearX_mean e') 0
        rwa [show isoT (0 : ℝ) = 0 by simp [isoT], add_zero] at this
      refine uepi_elastic_strained ops pr σref (shearX_symm.smul e') hdt ε ps (by rw [ht, zero_div, Real.exp_zero, mul_one]) ?_ (hF _ _ hq hc)
      rw [hd, smul_smul, ← add_smul]
      congr 2
      rw [hg, mccShear, uG, uK]
      ring) (by positivity)
  simp only [sheared_zero] at key
  have := pathWork_replicate (stress := UepiState.stress) (strain := Prod.fst) key.1 n
  refine ⟨this.1, this.2.trans ?_⟩
  rw [key.2]; ring

/-! ### Concrete cases -/

/-- Shearing forth and back. -/
example := elastic_cycle_work 1000 (3 / 10) (isoT 7) [(!![0, 1, 0; 0, 0, 0; 0, 0, 0], 1), (!![0, 0, 0; 1, 0, 0; 0, 0, 0], -1)] (by
  ext i j; fin_cases i <;> fin_cases j <;> simp [strainInc] <;> norm_num)
example := elastic_work_nonneg (E := 1000) (nu := 3 / 10) (by norm_num) (by norm_num) (by norm_num)
  [(!![0, 1, 0; 0, 0, 0; 0, 0, 0], 1), (!![3, 0, 0; 1, 0, 0; 0, 0, 0], -1)]

/-- Cohesive Drucker-Prager material, compressed and expanded. -/
example := dp_elastic_cycle { bulk := 100, shear := 50, mu1 := 1 / 2, mu2 := 1, c0 := 10, mu1Hat := 0, H := 0, rho0 := 1 } 5 1 (by norm_num)
  { stress := isoT 5, epsE := 0, epsP := 0 } (by rw [hooke_zero, zero_add]) [(isoT (1 / 100), 2), (isoT (-1 / 100), 2)] (by
    have hk : ∀ l G c p : ℝ, hooke l G (isoT c) + isoT p = isoT ((3 * l + 2 * G) * c + p) := by
      intro l G c p
      ext i j; simp only [hooke, isoT_apply, Matrix.add_apply, if_true]; split_ifs <;> ring
    have hJ : ∀ p : ℝ, J2 (isoT p) = 0 := fun p => by rw [J2, dev_isoT]; simp [ddot]
    have hadd : ∀ a c : ℝ, isoT a + isoT c = isoT (a + c) := fun a c => by rw [isoT, isoT, isoT, add_smul]
    have h1 : dpYield (1 / 2) 1 (10 + 0 * 0) (hooke (100 - 2 / 3 * 50) 50 (0 + isoT (1 / 100)) + isoT 5) ≤ -(1 / 10 ^ 6) := by
      rw [zero_add, hk, dpYield, hJ, meanStress_isoT, Real.sqrt_zero]; norm_num
    refine ⟨⟨isoT_symm _, by norm_num, h1⟩, ⟨isoT_symm _, by norm_num, ?_⟩, trivial⟩
    have e := dp_elastic_strained { bulk := 100, shear := 50, mu1 := 1 / 2, mu2 := 1, c0 := 10, mu1Hat := 0, H := 0, rho0 := 1 } 5
      (dt := 1) (by norm_num) (rho := 2) { stress := isoT 5, epsE := 0, epsP := 0 } (isoT_symm (1 / 100 : ℝ)) (by norm_num) h1
    simp only at e
    simp only [e]
    rw [zero_add, hadd, hk, dpYield, hJ, meanStress_isoT, Real.sqrt_zero]; norm_num) (by simp [isoT, ← add_smul]; norm_num)

example (ops : NewtonOps ℝ) := mcc_cycle_gains ops exMCC_clay ⟨rfl, rfl⟩ 0 0 (p := 100) (pc := 400) (dt := 1) (e := 1 / 1000) (by norm_num)
  (by norm_num [exMCC]) (by norm_num) (by norm_num) (by rw [abs_of_pos (by norm_num)]; norm_num [mccShear, exMCC]) (v := fun _ => 3 / 2)
  (fun _ => by norm_num [exMCC]) 5
example (ops : NewtonOps ℝ) := mcc_energy_unbounded ops exMCC_clay ⟨rfl, rfl⟩ 0 0 (p := 100) (pc := 400) (dt := 1) (v := 3 / 2) (by norm_num)
  (by norm_num [exMCC]) (by norm_num) (by norm_num) (by norm_num [exMCC]) (10 ^ 9)
example (ops : NewtonOps ℝ) := uepi_cycle_gains ops exUepi_good 0 0 (p := 1000) (ps := 2000) (dt := 1) (e := 1 / 1000) (by norm_num)
  (by norm_num) (by norm_num) (by rw [abs_of_pos (by norm_num)]; norm_num [mccShear, exUepi]) 5

end Hydrax
