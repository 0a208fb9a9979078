import Verif.Props.Invariants
import Verif.Lemmas.RealFns

/-!
# Property C41: removal of accumulated shear
-/

set_option linter.unusedSectionVars false

namespace Hydrax

section

/-- Determinant of the in-plane block. -/
def Spec.planeDet {K : Type*} [Ring K] (F : Matrix (Fin 3) (Fin 3) K) : K := F 0 0 * F 1 1 - F 0 1 * F 1 0

variable {n : ℕ}

/-- **C41** (partial): without request nothing changes. In 3D the determinant is kept, no shear remains and
repeating the reset changes no `F`. In 2D the in-plane area ratio of a plane-strain `F` is kept.
Nothing but `F` and `F_store` changes. Missing: the determinant and idempotence in 2D, and `F_store`, which
are false (`reset_det_fails`, `reset_twice_fails`, `store_lost`). -/
theorem remove_shear_partial {dim : ℕ} (s : MPState ℝ dim n) :
    removeShear realFns false s = s ∧
    (∀ r, removeShear realFns r s = { s with F := (removeShear realFns r s).F,
                                             FStore := (removeShear realFns r s).FStore }) ∧
    (dim = 3 → ∀ p, ((removeShear realFns true s).F p).det = (s.F p).det ∧
      (∃ c : ℝ, (removeShear realFns true s).F p = c • (1 : Mat3 ℝ)) ∧
      (removeShear realFns true (removeShear realFns true s)).F p = (removeShear realFns true s).F p) ∧
    (dim = 2 → ∀ p, s.F p 0 2 = 0 → s.F p 1 2 = 0 → s.F p 2 0 = 0 → s.F p 2 1 = 0 → s.F p 2 2 = 1 →
      0 ≤ Spec.planeDet (s.F p) →
      Spec.planeDet ((removeShear realFns true s).F p) = Spec.planeDet (s.F p)) := by
  refine ⟨rfl, fun r => by cases r <;> rfl, ?_, ?_⟩
  · rintro rfl p
    have hdet : (cbar realFns 3 (s.F p)).det = (s.F p).det := cbar_det_three realFns_cbrt_cube _
    refine ⟨hdet, ⟨realFns.cbrt (s.F p).det, ?_⟩, ?_⟩
    · change cbar realFns 3 (s.F p) = _
      unfold cbar; rw [if_neg (by decide)]
    · change cbar realFns 3 (cbar realFns 3 (s.F p)) = cbar realFns 3 (s.F p)
      conv_lhs => rw [cbar, if_neg (by decide), hdet]
      conv_rhs => rw [cbar, if_neg (by decide)]
  · rintro rfl p h02 h12 h20 h21 h22 hpos
    have hd : (s.F p).det = Spec.planeDet (s.F p) := by
      rw [Matrix.det_fin_three, h02, h12, h20, h21, h22, Spec.planeDet]; ring
    change Spec.planeDet (cbar realFns 2 (s.F p)) = _
    unfold cbar
    rw [if_pos rfl]
    have : Spec.planeDet (Matrix.diagonal ![realFns.sqrt (s.F p).det, realFns.sqrt (s.F p).det, 0]) =
        Real.sqrt (s.F p).det * Real.sqrt (s.F p).det := by
      simp [Spec.planeDet, Matrix.diagonal]
    rw [this, hd, Real.mul_self_sqrt hpos]

/-- **C41** refuted in 2D: the reset always makes `det F` zero. -/
theorem reset_det_fails (s : MPState ℝ 2 n) (p : Fin n) : ((removeShear realFns true s).F p).det = 0 :=
  cbar_det_two _

/-- **C41** refuted in 2D: a second reset (two couplings of one body in one step) makes `F` zero altogether. -/
theorem reset_twice_fails (s : MPState ℝ 2 n) (p : Fin n) :
    (removeShear realFns true (removeShear realFns true s)).F p = 0 := by
  change cbar realFns 2 (cbar realFns 2 (s.F p)) = 0
  conv_lhs => rw [cbar, if_pos rfl, cbar_det_two]
  ext i j
  fin_cases i <;> fin_cases j <;> simp [Matrix.diagonal]

/-- A point of a body with stored deformation gradient in simple shear. -/
noncomputable def exShearBody (F : Mat3 ℝ) : MPState ℝ 3 1 :=
  MPState.create { position := fun _ _ => 0, F := some fun _ => F, storeF := true }

/-- Kinematic update by an increment of the deformation gradient (usl_asflip.py:492-503). -/
def deformBy {K : Type*} [Field K] {dim : ℕ} (A : Mat3 K) (s : MPState K dim n) : MPState K dim n :=
  { s with F := fun p => A * s.F p, FStore := s.FStore.map fun fs p => A * fs p }

/-- **C41** refuted: `F_store` does not keep the accumulated deformation gradient. After two equal shear
increments with resets it holds the last increment only. -/
theorem store_lost :
    (removeShear realFns true (deformBy !![1, 1, 0; 0, 1, 0; 0, 0, 1]
      (removeShear realFns true (deformBy !![1, 1, 0; 0, 1, 0; 0, 0, 1] (exShearBody 1))))).FStore =
      some (fun _ => !![1, 1, 0; 0, 1, 0; 0, 0, 1]) ∧
    (!![1, 1, 0; 0, 1, 0; 0, 0, 1] : Mat3 ℝ) ≠
      !![1, 1, 0; 0, 1, 0; 0, 0, 1] * !![1, 1, 0; 0, 1, 0; 0, 0, 1] := by
  constructor
  · have h1 : cbar realFns 3 (!![1, 1, 0; 0, 1, 0; 0, 0, 1] * 1) = 1 := by
      unfold cbar
      rw [if_neg (by decide), mul_one]
      have : (!![1, 1, 0; 0, 1, 0; 0, 0, 1] : Mat3 ℝ).det = 1 := by
        rw [Matrix.det_fin_three]; simp
      rw [this]
      have : realFns.cbrt 1 = 1 := by simp [realFns]
      rw [this, one_smul]
    have h2 : (removeShear realFns true (deformBy !![1, 1, 0; 0, 1, 0; 0, 0, 1]
      (removeShear realFns true (deformBy !![1, 1, 0; 0, 1, 0; 0, 0, 1] (exShearBody 1))))).FStore =
      some (fun _ => !![1, 1, 0; 0, 1, 0; 0, 0, 1] * cbar realFns 3 (!![1, 1, 0; 0, 1, 0; 0, 0, 1] * 1)) := rfl
    rw [h2, h1, mul_one]
  · intro h
    have := congrFun (congrFun h 0) 1
    simp [Matrix.mul_apply, Fin.sum_univ_three] at this

/-- Whatever was accumulated before, after an AFLIP update and a reset `F_store` is just the current `F` before
its reset. -/
theorem store_overwritten {dim w : ℕ} (fn : MathFns ℝ) (pr : AflipParams ℝ) (cell dt : ℝ)
    (c : InteractionCache ℝ n w) (g : GridArrays ℝ dim) (s : MPState ℝ dim n) (G : Fin n → Mat3 ℝ)
    (hs : s.FStore = some G) :
    (removeShear fn true (aflipG2pMls fn.sqrt pr cell dt c g s).1).FStore =
      some (aflipG2pMls fn.sqrt pr cell dt c g s).1.F := by
  simp only [removeShear, aflipG2pMls, hs, Option.map_some]
  rfl

/-- The 3D part applies to a sheared and compressed point. -/
example : ((removeShear realFns true (exShearBody !![1 / 2, 1, 0; 0, 1, 0; 0, 0, 1])).F 0).det = 1 / 2 := by
  rw [(((remove_shear_partial (exShearBody !![1 / 2, 1, 0; 0, 1, 0; 0, 0, 1])).2.2.1 rfl 0).1)]
  simp [exShearBody, MPState.create, Matrix.det_fin_three]

end
end Hydrax
