import Verif.Model.IEEE
import Verif.Props.AutoDiff
import Verif.Model.ElementTest

/-!
# C141: gradients are numbers
-/

namespace Hydrax

/-- No division by zero, and roots and logarithms of positive numbers only. Ties and `stop_gradient` are allowed. -/
def Spec.Tame {ι : Type*} (x : ι → ℝ) : Ex ℝ ι → Prop
  | .var _ => True
  | .const _ => True
  | .neg a => Tame x a
  | .add a b => Tame x a ∧ Tame x b
  | .sub a b => Tame x a ∧ Tame x b
  | .mul a b => Tame x a ∧ Tame x b
  | .div a b => Tame x a ∧ Tame x b ∧ b.eval realAd x ≠ 0
  | .exp a => Tame x a
  | .log a => Tame x a ∧ 0 < a.eval realAd x
  | .sqrt a => Tame x a ∧ 0 < a.eval realAd x
  | .max a b => Tame x a ∧ Tame x b
  | .min a b => Tame x a ∧ Tame x b
  | .sel c d a b => Tame x c ∧ Tame x d ∧ Tame x a ∧ Tame x b
  | .stop a => Tame x a

section
variable {ι : Type*}

@[simp] theorem ieee_zero : ieeeAd.zero = .num 0 := rfl
@[simp] theorem ieee_half : ieeeAd.half = .num (1 / 2) := rfl
@[simp] theorem ieee_one : ieeeAd.one = .num 1 := rfl
@[simp] theorem ieee_neg (a : ℝ) : ieeeAd.neg (.num a) = .num (-a) := rfl
@[simp] theorem ieee_add (a b : ℝ) : ieeeAd.add (.num a) (.num b) = .num (a + b) := rfl
@[simp] theorem ieee_sub (a b : ℝ) : ieeeAd.sub (.num a) (.num b) = .num (a - b) := by
  change XR.num (a + -b) = _; rw [sub_eq_add_neg]
@[simp] theorem ieee_mul (a b : ℝ) : ieeeAd.mul (.num a) (.num b) = .num (a * b) := rfl
theorem ieee_div (a : ℝ) {b : ℝ} (h : b ≠ 0) : ieeeAd.div (.num a) (.num b) = .num (a / b) := by
  change XR.div (.num a) (.num b) = _; rw [XR.div, if_neg h]
@[simp] theorem ieee_exp (a : ℝ) : ieeeAd.exp (.num a) = .num (Real.exp a) := rfl
theorem ieee_log {a : ℝ} (h : 0 < a) : ieeeAd.log (.num a) = .num (Real.log a) := by
  change XR.log (.num a) = _; rw [XR.log, if_pos h]
theorem ieee_sqrt {a : ℝ} (h : 0 ≤ a) : ieeeAd.sqrt (.num a) = .num √a := by
  change XR.sqrt (.num a) = _; rw [XR.sqrt, if_pos h]
@[simp] theorem ieee_max (a b : ℝ) : ieeeAd.max (.num a) (.num b) = .num (max a b) := rfl
@[simp] theorem ieee_min (a b : ℝ) : ieeeAd.min (.num a) (.num b) = .num (min a b) := by
  change XR.num (-(max (-a) (-b))) = _
  rw [max_neg_neg, neg_neg]
@[simp] theorem ieee_ge (a b : ℝ) : (ieeeAd.ge (.num a) (.num b) = true) ↔ b ≤ a := by
  change decide (b ≤ a) = true ↔ _
  exact decide_eq_true_iff
@[simp] theorem ieee_eq (a b : ℝ) : (ieeeAd.eq (.num a) (.num b) = true) ↔ a = b := by
  change decide (a = b) = true ↔ _
  exact decide_eq_true_iff

theorem ieee_bal (a z b : ℝ) : ieeeAd.bal (.num a) (.num z) (.num b) = .num (realAd.bal a z b) := by
  simp only [AdOps.bal, ieee_eq, realAd_eq, ieee_half, ieee_one, ieee_zero, realAd_half, realAd_one, realAd_zero]
  split_ifs <;> rfl

/-- A program without poles and edges runs on numbers as in exact arithmetic. -/
theorem ieee_eval (e : Ex ℝ ι) (x : ι → ℝ) (h : Spec.Tame x e) :
    (e.map XR.num).eval ieeeAd (fun i => .num (x i)) = .num (e.eval realAd x) := by
  induction e with
  | var i => rfl
  | const c => rfl
  | neg a iha => simp only [Ex.map, Ex.eval, iha h, ieee_neg, realAd_neg]
  | add a b iha ihb => simp only [Ex.map, Ex.eval, iha h.1, ihb h.2, ieee_add, realAd_add]
  | sub a b iha ihb => simp only [Ex.map, Ex.eval, iha h.1, ihb h.2, ieee_sub, realAd_sub]
  | mul a b iha ihb => simp only [Ex.map, Ex.eval, iha h.1, ihb h.2, ieee_mul, realAd_mul]
  | div a b iha ihb => simp only [Ex.map, Ex.eval, iha h.1, ihb h.2.1, ieee_div _ h.2.2, realAd_div]
  | exp a iha => simp only [Ex.map, Ex.eval, iha h, ieee_exp, realAd_exp]
  | log a iha => simp only [Ex.map, Ex.eval, iha h.1, ieee_log h.2, realAd_log]
  | sqrt a iha => simp only [Ex.map, Ex.eval, iha h.1, ieee_sqrt h.2.le, realAd_sqrt]
  | max a b iha ihb => simp only [Ex.map, Ex.eval, iha h.1, ihb h.2, ieee_max, realAd_max]
  | min a b iha ihb => simp only [Ex.map, Ex.eval, iha h.1, ihb h.2, ieee_min, realAd_min]
  | sel c d a b ihc ihd iha ihb =>
    simp only [Ex.map, Ex.eval, ihc h.1, ihd h.2.1, iha h.2.2.1, ihb h.2.2.2, ieee_ge, realAd_ge]
    split_ifs <;> rfl
  | stop a iha => exact iha h

/-- **C141**: where a program has no pole and no edge, forward mode returns numbers, namely those of exact arithmetic. -/
theorem ieee_forward (e : Ex ℝ ι) (x v : ι → ℝ) (h : Spec.Tame x e) :
    (e.map XR.num).tan ieeeAd (fun i => .num (x i)) (fun i => .num (v i)) = .num (e.tan realAd x v) := by
  induction e with
  | var i => rfl
  | const c => rfl
  | neg a iha => simp only [Ex.map, Ex.tan, iha h, ieee_neg, realAd_neg]
  | add a b iha ihb => simp only [Ex.map, Ex.tan, iha h.1, ihb h.2, ieee_add, realAd_add]
  | sub a b iha ihb => simp only [Ex.map, Ex.tan, iha h.1, ihb h.2, ieee_sub, realAd_sub]
  | mul a b iha ihb =>
    simp only [Ex.map, Ex.tan, iha h.1, ihb h.2, ieee_eval _ _ h.1, ieee_eval _ _ h.2, ieee_mul, realAd_mul, ieee_add, realAd_add]
  | div a b iha ihb =>
    simp only [Ex.map, Ex.tan, iha h.1, ihb h.2.1, ieee_eval _ _ h.1, ieee_eval _ _ h.2.1, ieee_mul, realAd_mul, ieee_add, realAd_add,
      ieee_neg, realAd_neg, ieee_one, realAd_one, ieee_div _ h.2.2, ieee_div _ (mul_ne_zero h.2.2 h.2.2), realAd_div]
  | exp a iha => simp only [Ex.map, Ex.tan, iha h, ieee_eval a x h, ieee_exp, realAd_exp, ieee_mul, realAd_mul]
  | log a iha => simp only [Ex.map, Ex.tan, iha h.1, ieee_eval _ _ h.1, ieee_div _ h.2.ne', realAd_div]
  | sqrt a iha =>
    simp only [Ex.map, Ex.tan, iha h.1, ieee_eval _ _ h.1, ieee_sqrt h.2.le, ieee_half, ieee_div _ (Real.sqrt_pos.mpr h.2).ne', ieee_mul,
      realAd_mul, realAd_div, realAd_half, realAd_sqrt]
  | max a b iha ihb =>
    simp only [Ex.map, Ex.tan, iha h.1, ihb h.2, ieee_eval _ _ h.1, ieee_eval _ _ h.2, ieee_max, realAd_max, ieee_bal, ieee_mul, realAd_mul,
      ieee_add, realAd_add]
  | min a b iha ihb =>
    simp only [Ex.map, Ex.tan, iha h.1, ihb h.2, ieee_eval _ _ h.1, ieee_eval _ _ h.2, ieee_min, realAd_min, ieee_bal, ieee_mul, realAd_mul,
      ieee_add, realAd_add]
  | sel c d a b ihc ihd iha ihb =>
    simp only [Ex.map, Ex.tan, iha h.2.2.1, ihb h.2.2.2, ieee_eval _ _ h.1, ieee_eval _ _ h.2.1, ieee_ge, realAd_ge]
    split_ifs <;> rfl
  | stop a iha => rfl

/-- **C141**: and so does reverse mode. -/
theorem ieee_reverse [DecidableEq ι] (e : Ex ℝ ι) (x : ι → ℝ) (w : ℝ) (k : ι) (h : Spec.Tame x e) :
    (e.map XR.num).cot ieeeAd (fun i => .num (x i)) (.num w) k = .num (e.cot realAd x w k) := by
  induction e generalizing w with
  | var i => simp only [Ex.map, Ex.cot]; split_ifs <;> rfl
  | const c => rfl
  | neg a iha => simp only [Ex.map, Ex.cot, ieee_neg, realAd_neg, iha _ h]
  | add a b iha ihb => simp only [Ex.map, Ex.cot, iha _ h.1, ihb _ h.2, ieee_add, realAd_add]
  | sub a b iha ihb => simp only [Ex.map, Ex.cot, ieee_neg, realAd_neg, iha _ h.1, ihb _ h.2, ieee_add, realAd_add]
  | mul a b iha ihb =>
    simp only [Ex.map, Ex.cot, ieee_eval _ _ h.1, ieee_eval _ _ h.2, ieee_mul, realAd_mul, iha _ h.1, ihb _ h.2, ieee_add, realAd_add]
  | div a b iha ihb =>
    simp only [Ex.map, Ex.cot, ieee_eval _ _ h.1, ieee_eval _ _ h.2.1, ieee_mul, realAd_mul, ieee_add, realAd_add,
      ieee_neg, realAd_neg, ieee_one, realAd_one, ieee_div _ h.2.2, ieee_div _ (mul_ne_zero h.2.2 h.2.2), realAd_div, iha _ h.1, ihb _ h.2.1]
  | exp a iha => simp only [Ex.map, Ex.cot, ieee_eval a x h, ieee_exp, realAd_exp, ieee_mul, realAd_mul, iha _ h]
  | log a iha => simp only [Ex.map, Ex.cot, ieee_eval _ _ h.1, ieee_div _ h.2.ne', realAd_div, iha _ h.1]
  | sqrt a iha =>
    simp only [Ex.map, Ex.cot, ieee_eval _ _ h.1, ieee_sqrt h.2.le, ieee_half, ieee_div _ (Real.sqrt_pos.mpr h.2).ne', ieee_mul,
      realAd_mul, realAd_div, realAd_half, realAd_sqrt, iha _ h.1]
  | max a b iha ihb =>
    simp only [Ex.map, Ex.cot, ieee_eval _ _ h.1, ieee_eval _ _ h.2, ieee_max, realAd_max, ieee_bal, ieee_mul, realAd_mul,
      ieee_add, realAd_add, iha _ h.1, ihb _ h.2]
  | min a b iha ihb =>
    simp only [Ex.map, Ex.cot, ieee_eval _ _ h.1, ieee_eval _ _ h.2, ieee_min, realAd_min, ieee_bal, ieee_mul, realAd_mul,
      ieee_add, realAd_add, iha _ h.1, ihb _ h.2]
  | sel c d a b ihc ihd iha ihb =>
    simp only [Ex.map, Ex.cot, ieee_eval _ _ h.1, ieee_eval _ _ h.2.1, ieee_ge, realAd_ge, ieee_zero, realAd_zero]
    split_ifs <;> simp only [iha _ h.2.2.1, ihb _ h.2.2.2, ieee_add, realAd_add]
  | stop a iha => rfl

/-! ### Where derivatives are NaN -/

/-- `q` is a part of the program through which derivatives pass. -/
def Spec.Within {V : Type*} (q : Ex V ι) : Ex V ι → Prop
  | .var i => .var i = q
  | .const c => .const c = q
  | .neg a => .neg a = q ∨ Within q a
  | .add a b => .add a b = q ∨ Within q a ∨ Within q b
  | .sub a b => .sub a b = q ∨ Within q a ∨ Within q b
  | .mul a b => .mul a b = q ∨ Within q a ∨ Within q b
  | .div a b => .div a b = q ∨ Within q a ∨ Within q b
  | .exp a => .exp a = q ∨ Within q a
  | .log a => .log a = q ∨ Within q a
  | .sqrt a => .sqrt a = q ∨ Within q a
  | .max a b => .max a b = q ∨ Within q a ∨ Within q b
  | .min a b => .min a b = q ∨ Within q a ∨ Within q b
  | .sel c d a b => .sel c d a b = q ∨ Within q a ∨ Within q b
  | .stop a => .stop a = q

/-- Derivatives of the program with respect to the input `k` pass through a chosen branch. -/
def Spec.Reaches (x : ι → XR) (k : ι) : Ex XR ι → Prop
  | .var i => i = k
  | .const _ => False
  | .neg a => Reaches x k a
  | .add a b => Reaches x k a ∨ Reaches x k b
  | .sub a b => Reaches x k a ∨ Reaches x k b
  | .mul a b => Reaches x k a ∨ Reaches x k b
  | .div a b => Reaches x k a ∨ Reaches x k b
  | .exp a => Reaches x k a
  | .log a => Reaches x k a
  | .sqrt a => Reaches x k a
  | .max a b => Reaches x k a ∨ Reaches x k b
  | .min a b => Reaches x k a ∨ Reaches x k b
  | .sel c d a b => if ieeeAd.ge (c.eval ieeeAd x) (d.eval ieeeAd x) = true then Reaches x k a else Reaches x k b
  | .stop _ => False

theorem ieee_nan_add (a : XR) : ieeeAd.add .nan a = .nan := by cases a <;> rfl
theorem ieee_add_nan (a : XR) : ieeeAd.add a .nan = .nan := by cases a <;> rfl
theorem ieee_nan_mul (a : XR) : ieeeAd.mul .nan a = .nan := by cases a <;> rfl
theorem ieee_mul_nan (a : XR) : ieeeAd.mul a .nan = .nan := by cases a <;> rfl
theorem ieee_nan_div (a : XR) : ieeeAd.div .nan a = .nan := by cases a <;> rfl
theorem ieee_div_nan (a : XR) : ieeeAd.div a .nan = .nan := by cases a <;> rfl
theorem ieee_neg_nan : ieeeAd.neg .nan = .nan := rfl

theorem ieee_add_of_nan {a b : XR} (h : a = .nan ∨ b = .nan) : ieeeAd.add a b = .nan := by
  rcases h with h | h
  · rw [h, ieee_nan_add]
  · rw [h, ieee_add_nan]

variable [DecidableEq ι]

/-- A NaN cotangent makes the derivative with respect to every input it reaches NaN. -/
theorem cot_nan (e : Ex XR ι) (x : ι → XR) (k : ι) (h : Spec.Reaches x k e) : e.cot ieeeAd x .nan k = .nan := by
  induction e with
  | var i => simp only [Ex.cot]; rw [if_pos (Eq.symm h)]
  | const c => exact h.elim
  | neg a iha => exact iha h
  | add a b iha ihb => exact ieee_add_of_nan (h.imp iha ihb)
  | sub a b iha ihb => exact ieee_add_of_nan (h.imp iha ihb)
  | mul a b iha ihb =>
    simp only [Ex.cot, ieee_nan_mul, ieee_mul_nan]
    exact ieee_add_of_nan (h.imp iha ihb)
  | div a b iha ihb =>
    simp only [Ex.cot, ieee_nan_mul, ieee_nan_div, ieee_neg_nan]
    exact ieee_add_of_nan (h.imp iha ihb)
  | exp a iha => simp only [Ex.cot, ieee_nan_mul]; exact iha h
  | log a iha => simp only [Ex.cot, ieee_nan_div]; exact iha h
  | sqrt a iha => simp only [Ex.cot, ieee_nan_mul]; exact iha h
  | max a b iha ihb =>
    simp only [Ex.cot, ieee_nan_mul]
    exact ieee_add_of_nan (h.imp iha ihb)
  | min a b iha ihb =>
    simp only [Ex.cot, ieee_nan_mul]
    exact ieee_add_of_nan (h.imp iha ihb)
  | sel c d a b ihc ihd iha ihb =>
    simp only [Spec.Reaches] at h
    simp only [Ex.cot]
    split_ifs at h ⊢ with hc
    · exact ieee_add_of_nan (.inl (iha h))
    · exact ieee_add_of_nan (.inr (ihb h))
  | stop a iha => exact h.elim

/-- **C141**: a part whose derivative is NaN for every cotangent makes the derivative of the whole program NaN, wherever the part
stands: behind a zero factor, in a branch that is not chosen, or under a maximum that is attained elsewhere. -/
theorem nan_spreads (q e : Ex XR ι) (x : ι → XR) (k : ι) (hq : ∀ w, q.cot ieeeAd x w k = .nan) (h : Spec.Within q e) (w : XR) :
    e.cot ieeeAd x w k = .nan := by
  induction e generalizing w with
  | var i => cases h; exact hq w
  | const c => cases h; exact hq w
  | neg a iha =>
    rcases h with h | h
    · cases h; exact hq w
    · exact iha h _
  | add a b iha ihb =>
    rcases h with h | h
    · cases h; exact hq w
    · exact ieee_add_of_nan (h.imp (fun h => iha h _) fun h => ihb h _)
  | sub a b iha ihb =>
    rcases h with h | h
    · cases h; exact hq w
    · exact ieee_add_of_nan (h.imp (fun h => iha h _) fun h => ihb h _)
  | mul a b iha ihb =>
    rcases h with h | h
    · cases h; exact hq w
    · exact ieee_add_of_nan (h.imp (fun h => iha h _) fun h => ihb h _)
  | div a b iha ihb =>
    rcases h with h | h
    · cases h; exact hq w
    · exact ieee_add_of_nan (h.imp (fun h => iha h _) fun h => ihb h _)
  | exp a iha =>
    rcases h with h | h
    · cases h; exact hq w
    · exact iha h _
  | log a iha =>
    rcases h with h | h
    · cases h; exact hq w
    · exact iha h _
  | sqrt a iha =>
    rcases h with h | h
    · cases h; exact hq w
    · exact iha h _
  | max a b iha ihb =>
    rcases h with h | h
    · cases h; exact hq w
    · exact ieee_add_of_nan (h.imp (fun h => iha h _) fun h => ihb h _)
  | min a b iha ihb =>
    rcases h with h | h
    · cases h; exact hq w
    · exact ieee_add_of_nan (h.imp (fun h => iha h _) fun h => ihb h _)
  | sel c d a b ihc ihd iha ihb =>
    rcases h with h | h
    · cases h; exact hq w
    · exact ieee_add_of_nan (h.imp (fun h => iha h _) fun h => ihb h _)
  | stop a iha => cases h; exact hq w

/-- Infinite or NaN. -/
theorem ieee_mul_pinf (w : XR) : (ieeeAd.mul w .pinf).bad = true := by
  cases w with
  | num a =>
    change (XR.signedInf a).bad = true
    unfold XR.signedInf
    split_ifs <;> rfl
  | _ => rfl

theorem ieee_mul_pos_bad {c : ℝ} (hc : 0 < c) {w : XR} (hw : w.bad = true) : (ieeeAd.mul (.num c) w).bad = true := by
  cases w with
  | num a => exact absurd hw (by simp [XR.bad])
  | pinf => change (XR.signedInf c).bad = true; unfold XR.signedInf; split_ifs <;> rfl
  | ninf => change (XR.signedInf (-c)).bad = true; unfold XR.signedInf; split_ifs <;> rfl
  | nan => rfl

theorem ieee_bad_mul_zero {w : XR} (hw : w.bad = true) : ieeeAd.mul w (.num 0) = .nan ∧ ieeeAd.mul (.num 0) w = .nan := by
  cases w with
  | num a => exact absurd hw (by simp [XR.bad])
  | pinf => exact ⟨if_pos rfl, if_pos rfl⟩
  | ninf => exact ⟨if_pos neg_zero, if_pos neg_zero⟩
  | nan => exact ⟨rfl, rfl⟩

omit [DecidableEq ι] in
theorem foldr_eval_zero {κ : Type*} (s : κ → Ex XR ι) (x : ι → XR) (l : List κ) (h0 : ∀ i, (s i).eval ieeeAd x = .num 0) :
    (((l.foldr (fun k e => Ex.add (.mul (.var k) (.var k)) e) (.const 0) : Ex ℝ κ).map XR.num).subst s).eval ieeeAd x = .num 0 := by
  induction l with
  | nil => rfl
  | cons a l ih => simp only [List.foldr, Ex.map, Ex.subst, Ex.eval, ih, h0, ieee_mul, ieee_add, mul_zero, add_zero]

theorem foldr_cot_nan {κ : Type*} (s : κ → Ex XR ι) (x : ι → XR) (k : ι) (l : List κ) (h0 : ∀ i, (s i).eval ieeeAd x = .num 0)
    (hk : ∃ i ∈ l, Spec.Reaches x k (s i)) {w : XR} (hw : w.bad = true) :
    (((l.foldr (fun k e => Ex.add (.mul (.var k) (.var k)) e) (.const 0) : Ex ℝ κ).map XR.num).subst s).cot ieeeAd x w k = .nan := by
  induction l with
  | nil => obtain ⟨i, hi, _⟩ := hk; simp at hi
  | cons a l ih =>
    obtain ⟨i, hi, hr⟩ := hk
    simp only [List.foldr, Ex.map, Ex.subst, Ex.cot, h0, ieee_bad_mul_zero hw]
    rcases List.mem_cons.mp hi with rfl | hi
    · exact ieee_add_of_nan (.inl (ieee_add_of_nan (.inl (cot_nan _ _ _ hr))))
    · exact ieee_add_of_nan (.inr (ih ⟨i, hi, hr⟩))

theorem ieee_half_sqrt_zero : ieeeAd.div ieeeAd.half (ieeeAd.sqrt (.num 0)) = .pinf := by
  rw [ieee_sqrt le_rfl, Real.sqrt_zero]
  change (if (0 : ℝ) = 0 then XR.signedInf (1 / 2) else _) = _
  rw [if_pos rfl, XR.signedInf, if_neg (by norm_num), if_pos (by norm_num)]

/-- **C141** (refuted in general): where every component of a deviatoric stress vanishes, the derivative of `get_q_vm` with respect
to whatever the stress depends on is NaN, for every cotangent, zero included. -/
theorem q_grad_nan (s : Fin 3 × Fin 3 → Ex XR ι) (x : ι → XR) (k : ι) (h0 : ∀ i, (s i).eval ieeeAd x = .num 0)
    (hk : ∃ i, Spec.Reaches x k (s i)) (w : XR) : (((qProg (K := ℝ)).map XR.num).subst s).cot ieeeAd x w k = .nan := by
  obtain ⟨i, hr⟩ := hk
  have hi : ∃ j ∈ [((0 : Fin 3), (0 : Fin 3)), (0, 1), (0, 2), (1, 0), (1, 1), (1, 2), (2, 0), (2, 1), (2, 2)], Spec.Reaches x k (s j) := by
    refine ⟨i, ?_, hr⟩
    fin_cases i <;> simp
  simp only [qProg, contrProg, Ex.map, Ex.subst, Ex.cot, Ex.eval, foldr_eval_zero s x _ h0, ieee_mul, mul_zero, ieee_half_sqrt_zero]
  refine ieee_add_of_nan (.inr (ieee_add_of_nan (.inr (foldr_cot_nan s x k _ h0 hi ?_))))
  exact ieee_mul_pos_bad (by norm_num) (ieee_mul_pos_bad (by norm_num) (ieee_mul_pinf w))

/-- **C141** (refuted in general): the same for the shear rate of the mu(I) law where the rate of deformation vanishes. -/
theorem dotGamma_grad_nan (s : Fin 3 × Fin 3 → Ex XR ι) (x : ι → XR) (k : ι) (h0 : ∀ i, (s i).eval ieeeAd x = .num 0)
    (hk : ∃ i, Spec.Reaches x k (s i)) (w : XR) : (((dotGammaProg (K := ℝ)).map XR.num).subst s).cot ieeeAd x w k = .nan := by
  obtain ⟨i, hr⟩ := hk
  have hi : ∃ j ∈ [((0 : Fin 3), (0 : Fin 3)), (0, 1), (0, 2), (1, 0), (1, 1), (1, 2), (2, 0), (2, 1), (2, 2)], Spec.Reaches x k (s j) := by
    refine ⟨i, ?_, hr⟩
    fin_cases i <;> simp
  simp only [dotGammaProg, contrProg, Ex.map, Ex.subst, Ex.cot, Ex.eval, foldr_eval_zero s x _ h0, ieee_mul, mul_zero, ieee_half_sqrt_zero]
  refine ieee_add_of_nan (.inr (foldr_cot_nan s x k _ h0 hi ?_))
  exact ieee_mul_pos_bad (by norm_num) (ieee_mul_pinf w)

/-- **C141** (refuted): the mask of the Cam-Clay law does not help in reverse mode: also in the elastic branch the derivative of
`q_tr_safe` is NaN. -/
theorem qSafe_grad_nan (yf : ℝ) (s : Fin 3 × Fin 3 → Ex XR ι) (x : ι → XR) (k : ι) (h0 : ∀ i, (s i).eval ieeeAd x = .num 0)
    (hk : ∃ i, Spec.Reaches x k (s i)) (w : XR) : (((qSafeProg yf).map XR.num).subst s).cot ieeeAd x w k = .nan :=
  nan_spreads _ _ x k (q_grad_nan s x k h0 hk) (by simp [qSafeProg, Spec.Within, Ex.map, Ex.subst, qProg]) w

omit [DecidableEq ι] in
/-- **C141**: in forward mode the mask holds: in the elastic branch the tangent is zero. -/
theorem qSafe_forward (yf : ℝ) (hy : yf ≤ 0) (s : Fin 3 × Fin 3 → Ex XR ι) (x v : ι → XR) :
    (((qSafeProg yf).map XR.num).subst s).tan ieeeAd x v = .num 0 := by
  have hm : max (1 : ℝ) (1 / 10 ^ 6) = 1 := max_eq_left (by norm_num)
  have h1 : ieeeAd.ge (.num (-yf)) (.num 0) = true := (ieee_ge _ _).mpr (by linarith)
  have hb : (1 : ℝ) / 10 ^ 6 ≠ 1 := by norm_num
  simp only [qSafeProg, Ex.map, Ex.subst, Ex.tan, Ex.eval, h1, if_true, ieee_max, hm, AdOps.bal, ieee_eq, ieee_zero, ieee_one, if_neg hb,
    ieee_mul, ieee_add, zero_mul, add_zero]

/-- **C141** (refuted): the search for the lateral rate of a drained triaxial test never leaves zero if the stress is isotropic and
the axial rate is zero. `f` is the residual of the lateral stress, any program that uses `q_tr_safe` in a branch. -/
theorem lateral_search_stuck (G2 f : Ex XR (Fin 1)) (g dt yf : ℝ) (hg : G2.eval ieeeAd (fun _ => .num 0) = .num g)
    (hf : Spec.Within (((qSafeProg yf).map XR.num).subst
      (trialDevProg G2 (fun i => (triaxDevProg dt 0 i).map XR.num) fun _ => .num 0)) f) (n : ℕ) :
    lateralSearch f n = .num 0 := by
  have h0 : ∀ i, ((triaxDevProg dt 0 i).map XR.num).eval ieeeAd (fun _ => .num 0) = .num 0 := by
    intro i
    unfold triaxDevProg
    dsimp only
    have h3 : (3 : ℝ) ≠ 0 := by norm_num
    split_ifs <;>
    simp only [Ex.map, Ex.eval, ieee_mul, ieee_add, ieee_sub, ieee_div _ h3, zero_mul, add_zero, zero_div, sub_zero]
  have hr : Spec.Reaches (fun _ => .num 0) 0 ((triaxDevProg dt 0 (0, 0)).map XR.num) := by
    simp [triaxDevProg, Ex.map, Spec.Reaches]
  have hJ : adGrad ieeeAd f (fun _ => XR.num 0) 0 = .nan := by
    refine nan_spreads _ _ _ 0 (qSafe_grad_nan yf _ _ 0 (fun i => ?_) ⟨(0, 0), ?_⟩) hf _
    · simp only [trialDevProg, Ex.eval, hg, h0, ieee_mul, ieee_add, mul_zero, add_zero]
    · exact Or.inl (Or.inr hr)
  have hd : ∀ a : XR, XR.div a .nan = .nan := ieee_div_nan
  have hm : ∀ a : XR, XR.mul a .nan = .nan := ieee_mul_nan
  have ha : ∀ a : XR, XR.add a .nan = .nan := ieee_add_nan
  induction n with
  | zero => rfl
  | succ n ih => simp only [lateralSearch, ih, hJ, hd, hm, ha, XR.bad, if_true]

/-! ### Where they are numbers -/

omit [DecidableEq ι]

theorem foldr_tame {κ : Type*} (x : κ → ℝ) (l : List κ) :
    Spec.Tame x (l.foldr (fun k e => Ex.add (.mul (.var k) (.var k)) e) (.const 0) : Ex ℝ κ) ∧
      0 ≤ (l.foldr (fun k e => Ex.add (.mul (.var k) (.var k)) e) (.const 0) : Ex ℝ κ).eval realAd x := by
  induction l with
  | nil => exact ⟨trivial, le_refl _⟩
  | cons a l ih =>
    refine ⟨⟨⟨trivial, trivial⟩, ih.1⟩, ?_⟩
    simp only [List.foldr, Ex.eval, realAd_add, realAd_mul]
    exact add_nonneg (mul_self_nonneg _) ih.2

/-- **C141**: the root in the Drucker-Prager law has finite derivatives at every stress. -/
theorem dpSqrt_tame (x : Fin 3 × Fin 3 → ℝ) : Spec.Tame x dpSqrtProg := by
  refine ⟨⟨⟨trivial, (foldr_tame x _).1⟩, trivial⟩, ?_⟩
  simp only [Ex.eval, realAd_max]
  exact lt_max_of_lt_right (by norm_num)

/-- **C141**: so has the shear strain measure `get_shear_strain_vm` at every strain. -/
theorem shearVm_tame (x : Fin 3 × Fin 3 → ℝ) : Spec.Tame x shearVmProg := by
  refine ⟨⟨⟨trivial, (foldr_tame x _).1⟩, trivial⟩, ?_⟩
  have := (foldr_tame x [((0 : Fin 3), (0 : Fin 3)), (0, 1), (0, 2), (1, 0), (1, 1), (1, 2), (2, 0), (2, 1), (2, 2)]).2
  simp only [Ex.eval, contrProg, realAd_add, realAd_mul]
  exact add_pos_of_nonneg_of_pos (mul_nonneg (by norm_num) this) (by norm_num)

/-- **C141**: and `safe_norm` of every vector. -/
theorem safeNorm_tame {n : ℕ} {eps : ℝ} (he : 0 < eps) (x : Fin n → ℝ) : Spec.Tame x (safeNormProg eps) := by
  refine ⟨⟨(foldr_tame x _).1, trivial⟩, ?_⟩
  simp only [Ex.eval, realAd_add]
  exact add_pos_of_nonneg_of_pos (foldr_tame x _).2 he

/-- **C141**: where the deviatoric stress does not vanish, `get_q_vm` has finite derivatives. -/
theorem q_tame (x : Fin 3 × Fin 3 → ℝ) (hx : ∃ i, x i ≠ 0) : Spec.Tame x qProg := by
  refine ⟨⟨trivial, trivial, (foldr_tame x _).1⟩, ?_⟩
  obtain ⟨⟨i, j⟩, h⟩ := hx
  have := mul_self_pos.mpr h
  simp only [contrProg, List.foldr, Ex.eval, realAd_add, realAd_mul]
  fin_cases i <;> fin_cases j <;> simp only [Fin.zero_eta, Fin.mk_one, Fin.reduceFinMk] at this <;>
  nlinarith [mul_self_nonneg (x (0, 0)), mul_self_nonneg (x (0, 1)), mul_self_nonneg (x (0, 2)), mul_self_nonneg (x (1, 0)),
    mul_self_nonneg (x (1, 1)), mul_self_nonneg (x (1, 2)), mul_self_nonneg (x (2, 0)), mul_self_nonneg (x (2, 1)),
    mul_self_nonneg (x (2, 2))]

/-- **C141**: and `safe_inv_scalar_clamped` of every number, zero included. -/
theorem safeInv_tame (clip : ℝ) {d : Ex ℝ ι} {x : ι → ℝ} (hd : Spec.Tame x d) : Spec.Tame x (safeInvProg clip d) := by
  have hr := regularised_ne (d.eval realAd x)
  have hds : (Ex.add d (.mul (.const (1 / 10 ^ 20)) (.sel d (.const 0) (.const 1) (.const (-1))))).eval realAd x =
      Spec.regularised (d.eval realAd x) := by
    simp only [Ex.eval, realAd_add, realAd_mul, realAd_ge, ← ge_iff_le, safeInv_ds]
  have hdT : Spec.Tame x (Ex.add d (.mul (.const (1 / 10 ^ 20)) (.sel d (.const 0) (.const 1) (.const (-1))))) :=
    ⟨hd, trivial, hd, trivial, trivial, trivial⟩
  have hsq : (Ex.mul (Ex.add d (.mul (.const (1 / 10 ^ 20)) (.sel d (.const 0) (.const 1) (.const (-1)))))
      (Ex.add d (.mul (.const (1 / 10 ^ 20)) (.sel d (.const 0) (.const 1) (.const (-1)))))).eval realAd x =
      Spec.regularised (d.eval realAd x) * Spec.regularised (d.eval realAd x) := by
    rw [Ex.eval, hds, realAd_mul]
  have hg : Spec.Tame x (Ex.div (.const (-1)) (.mul (Ex.add d (.mul (.const (1 / 10 ^ 20)) (.sel d (.const 0) (.const 1) (.const (-1)))))
      (Ex.add d (.mul (.const (1 / 10 ^ 20)) (.sel d (.const 0) (.const 1) (.const (-1))))))) :=
    ⟨trivial, ⟨hdT, hdT⟩, by rw [hsq]; exact mul_ne_zero hr hr⟩
  have hsl : Spec.Tame x (Ex.stop (.mul (Ex.div (.const (-1)) (.mul (Ex.add d (.mul (.const (1 / 10 ^ 20)) (.sel d (.const 0) (.const 1) (.const (-1)))))
      (Ex.add d (.mul (.const (1 / 10 ^ 20)) (.sel d (.const 0) (.const 1) (.const (-1)))))))
      (Ex.min (.const 1) (.div (.const clip) (.add (.neg (Ex.div (.const (-1)) (.mul (Ex.add d (.mul (.const (1 / 10 ^ 20)) (.sel d (.const 0) (.const 1) (.const (-1)))))
      (Ex.add d (.mul (.const (1 / 10 ^ 20)) (.sel d (.const 0) (.const 1) (.const (-1)))))))) (.const (1 / 10 ^ 12))))))) := by
    refine ⟨hg, trivial, trivial, ⟨hg, trivial⟩, ?_⟩
    have he : ∀ (m : Ex ℝ ι) (c : ℝ), (Ex.add (.neg (.div (.const (-1)) m)) (.const c)).eval realAd x = -(-1 / m.eval realAd x) + c :=
      fun _ _ => rfl
    rw [he, hsq]
    have h2 := mul_self_pos.mpr hr
    have : 0 < -(-1 / (Spec.regularised (d.eval realAd x) * Spec.regularised (d.eval realAd x))) := by
      rw [neg_div, neg_neg]; positivity
    have h3 : (0 : ℝ) < 1 / 10 ^ 12 := by norm_num
    exact (add_pos this h3).ne'
  exact ⟨⟨hd, hsl⟩, ⟨trivial, hdT, by rw [hds]; exact hr⟩, hd, hsl⟩

theorem clipProg_tame {lo hi : Option ℝ} {e : Ex ℝ ι} {x : ι → ℝ} (he : Spec.Tame x e) : Spec.Tame x (clipProg lo hi e) := by
  rcases lo with _ | a <;> rcases hi with _ | b
  · exact he
  · exact ⟨he, trivial⟩
  · exact ⟨he, trivial⟩
  · exact ⟨⟨he, trivial⟩, trivial⟩

/-- **C141**: the Jacobians of the Cam-Clay residuals are numbers at every iterate the loop can visit, kinks included. -/
theorem mcc_residuals_tame {pr : MCCParams ℝ} (h : pr.Clay) (t : MCCTrial ℝ) (hK : 0 < t.KTr) (pc : ℝ) (x : Fin 2 → ℝ) (h0 : 0 ≤ x 0)
    (i : Fin 2) : Spec.Tame x (mccProg realFns pr t pc i) := by
  have hG : 0 ≤ (mccResiduals realFns pr t pc x).G := by
    have e : (mccResiduals realFns pr t pc x).G = Spec.mccShear pr.nu (Spec.mccBulk pr.kap pr.KMin pr.KMax (mccResiduals realFns pr t pc x).p) := by
      rw [← mccK_spec, ← mccG_spec]; rfl
    rw [e, ← mccG_spec]
    exact mul_nonneg (div_nonneg (by linarith [h.nuHi]) (by linarith [h.nuLo])) (clayBulk_pos h _).le
  have hden : (mccDenProg realFns pr t pc).eval realAd x ≠ 0 := by
    rw [mccDenProg_eval]; positivity
  have hp : Spec.Tame x (mccPProg realFns pr t pc) := ⟨trivial, ⟨trivial, trivial, trivial, trivial⟩, trivial, h.kap.ne'⟩
  have hdT : Spec.Tame x (mccDenProg realFns pr t pc) :=
    ⟨trivial, ⟨trivial, trivial, clipProg_tame ⟨trivial, hp, trivial⟩⟩, trivial⟩
  have hq : Spec.Tame x (.mul (.const (max (if t.yf > 0 then t.qTr else 1) (1 / 10 ^ 6))) (.div (.const 1) (mccDenProg realFns pr t pc))) :=
    ⟨trivial, trivial, hdT, hden⟩
  fin_cases i
  · exact ⟨⟨⟨⟨⟨hq, hq⟩, trivial, (mul_pos h.M h.M).ne'⟩, hp, hp⟩, trivial, hp⟩, trivial, hK.ne'⟩
  · exact ⟨⟨⟨⟨trivial, ⟨trivial, hp⟩, trivial⟩, trivial⟩, trivial, trivial, trivial⟩, trivial, one_ne_zero⟩

/-- **C141**: so `jax.jacfwd` returns the Jacobian of exact arithmetic there, with no infinite entry and no NaN. -/
theorem mcc_jacfwd_number {pr : MCCParams ℝ} (h : pr.Clay) (t : MCCTrial ℝ) (hK : 0 < t.KTr) (pc : ℝ) (x : Fin 2 → ℝ) (h0 : 0 ≤ x 0)
    (i j : Fin 2) :
    jacfwd ieeeAd (fun i => (mccProg realFns pr t pc i).map XR.num) (fun k => .num (x k)) i j =
      .num (jacfwd realAd (mccProg realFns pr t pc) x i j) := by
  have := ieee_forward (mccProg realFns pr t pc i) x (fun k => if k = j then 1 else 0) (mcc_residuals_tame h t hK pc x h0 i)
  have e : (fun k => XR.num (if k = j then (1 : ℝ) else 0)) = fun k => if k = j then ieeeAd.one else ieeeAd.zero := by
    funext k; split_ifs <;> rfl
  rw [e] at this
  exact this

end

/-! ### The programs are those of the model -/

theorem contrProg_eval (A : Mat3 ℝ) : (contrProg (0 : ℝ)).eval realAd (fun i => A i.1 i.2) = dcontr A A := by
  simp only [contrProg, List.foldr, Ex.eval, realAd_add, realAd_mul, dcontr, Fin.sum_univ_three]
  ring

theorem qProg_eval (s : Mat3 ℝ) : qProg.eval realAd (fun i => s i.1 i.2) = qVmDev realFns s := by
  simp only [qProg, Ex.eval, realAd_sqrt, realAd_mul, contrProg_eval]
  rfl

theorem shearVmProg_eval (e : Mat3 ℝ) : shearVmProg.eval realAd (fun i => devStrain e i.1 i.2) = shearStrainVm realFns e := by
  simp only [shearVmProg, Ex.eval, realAd_sqrt, realAd_mul, realAd_add, contrProg_eval]
  rfl

theorem dpSqrtProg_eval (s : Mat3 ℝ) : dpSqrtProg.eval realAd (fun i => s i.1 i.2) = √(max (J2dev s) (1 / 10 ^ 12)) := by
  simp only [dpSqrtProg, Ex.eval, realAd_sqrt, realAd_mul, realAd_max, contrProg_eval]
  rfl

theorem dotGammaProg_eval (d : Mat3 ℝ) : dotGammaProg.eval realAd (fun i => d i.1 i.2) = √(2 * dcontr d d) := by
  simp only [dotGammaProg, Ex.eval, realAd_sqrt, realAd_mul, contrProg_eval]

theorem safeNormProg_eval {n : ℕ} (eps : ℝ) (x : Fin n → ℝ) : (safeNormProg eps).eval realAd x = safeNorm realFns eps x := by
  have h : ∀ l : List (Fin n), (l.foldr (fun k e => Ex.add (.mul (.var k) (.var k)) e) (.const 0) : Ex ℝ (Fin n)).eval realAd x =
      (l.map fun k => x k ^ 2).sum := by
    intro l
    induction l with
    | nil => rfl
    | cons a l ih => simp only [List.foldr, Ex.eval, realAd_add, realAd_mul, ih, List.map, List.sum_cons, sq]
  simp only [safeNormProg, Ex.eval, realAd_sqrt, realAd_add, h]
  rw [← List.ofFn_eq_map, List.sum_ofFn]
  rfl

theorem qSafeProg_eval (yf : ℝ) (s : Mat3 ℝ) : (qSafeProg yf).eval realAd (fun i => s i.1 i.2) =
    max (if yf > 0 then qVmDev realFns s else 1) (1 / 10 ^ 6) := by
  have h : (realAd.ge (-yf) 0 = true) ↔ ¬ yf > 0 := by rw [realAd_ge]; constructor <;> intro h <;> linarith
  simp only [qSafeProg, Ex.eval, realAd_max, qProg_eval, h, ite_not]

/-- The programs of the trial strain and stress are those of the Cam-Clay law in a triaxial step. -/
theorem triaxDevProg_eval (dt rate x : ℝ) (i j : Fin 3) :
    (triaxDevProg dt rate (i, j)).eval realAd (fun _ => x) = devStrain (dt • symTensor (triaxialL x rate)) i j := by
  have e : symTensor (triaxialL x rate) = triaxialL x rate := by
    ext a b
    simp only [symTensor, triaxialL, Matrix.smul_apply, Matrix.add_apply, Matrix.transpose_apply, smul_eq_mul, Matrix.diagonal_apply]
    rcases eq_or_ne a b with rfl | h
    · simp only [if_true]; ring
    · rw [if_neg h, if_neg h.symm]; ring
  rw [e, devStrain, devStrainV, volStrain]
  simp only [Matrix.sub_apply, Matrix.smul_apply, Matrix.one_apply, triaxialL, Matrix.diagonal_apply, smul_eq_mul, Matrix.trace,
    Fin.sum_univ_three, Matrix.diag_apply, triaxDevProg]
  fin_cases i <;> fin_cases j <;> simp [Ex.eval] <;> ring

theorem trialDevProg_eval (pr : MCCParams ℝ) (e σ σref : Mat3 ℝ) (pc dt rate x : ℝ) (G2 : Ex ℝ (Fin 1))
    (hG : G2.eval realAd (fun _ => x) = 2 * mccG pr.nu (mccTrial realFns pr (triaxialL x rate) e σ pc σref dt).KTr) (i j : Fin 3) :
    (trialDevProg G2 (triaxDevProg dt rate) (fun i => devStressP (jaumann σ (spinTensor (triaxialL x rate)) dt)
      (mccTrial realFns pr (triaxialL x rate) e σ pc σref dt).pPrev i.1 i.2) (i, j)).eval realAd (fun _ => x) =
      (mccTrial realFns pr (triaxialL x rate) e σ pc σref dt).sTr i j := by
  simp only [trialDevProg, Ex.eval, realAd_add, realAd_mul, hG, triaxDevProg_eval]
  rfl

/-- **C141**: for residuals without poles and edges the search is the damped Newton iteration of the model (C88); an iterate with
derivative zero is kept. -/
theorem lateral_search_newton (f : Ex ℝ (Fin 1)) (hf : ∀ x : ℝ, Spec.Tame (fun _ => x) f) (n : ℕ) :
    lateralSearch (f.map XR.num) n =
      .num (newtonIterate (fun _ x => adGrad realAd f (fun _ => x) 0) (fun x => f.eval realAd fun _ => x) n) := by
  induction n with
  | zero => rfl
  | succ n ih =>
    have hR := ieee_eval f _ (hf (newtonIterate (fun _ x => adGrad realAd f (fun _ => x) 0) (fun x => f.eval realAd fun _ => x) n))
    have hJ := ieee_reverse f _ 1 0 (hf (newtonIterate (fun _ x => adGrad realAd f (fun _ => x) 0) (fun x => f.eval realAd fun _ => x) n))
    have hJ' : adGrad ieeeAd (f.map XR.num) (fun _ => XR.num (newtonIterate (fun _ x => adGrad realAd f (fun _ => x) 0)
        (fun x => f.eval realAd fun _ => x) n)) 0 = .num (adGrad realAd f (fun _ => newtonIterate
          (fun _ x => adGrad realAd f (fun _ => x) 0) (fun x => f.eval realAd fun _ => x) n) 0) := hJ
    rw [lateralSearch, newtonIterate]
    simp only [ih, hR, hJ']
    generalize newtonIterate (fun _ x => adGrad realAd f (fun _ => x) 0) (fun x => f.eval realAd fun _ => x) n = y
    generalize f.eval realAd (fun _ => y) = R
    generalize adGrad realAd f (fun _ => y) 0 = J
    by_cases h : J = 0
    · subst h
      have hb : ∀ a, (XR.add (.num y) (XR.mul (.num (4 / 5)) (XR.signedInf a))).bad = true := by
        intro a
        unfold XR.signedInf
        split_ifs
        · rfl
        · have : XR.mul (.num (4 / 5)) .pinf = .pinf := by
            change XR.signedInf (4 / 5) = _
            rw [XR.signedInf, if_neg (by norm_num), if_pos (by norm_num)]
          rw [this]; rfl
        · have : XR.mul (.num (4 / 5)) .ninf = .ninf := by
            change XR.signedInf (-(4 / 5)) = _
            rw [XR.signedInf, if_neg (by norm_num), if_neg (by norm_num)]
          rw [this]; rfl
      have hd : XR.div (.num (-R)) (.num 0) = XR.signedInf (-R) := if_pos rfl
      have hn : XR.neg (.num R) = .num (-R) := rfl
      rw [hn, hd, if_pos (hb _), if_pos rfl]
    · have hd : XR.div (.num (-R)) (.num J) = .num (-R / J) := if_neg h
      have hn : XR.neg (.num R) = .num (-R) := rfl
      rw [hn, hd, if_neg h]
      rfl

/-! ### Worked cases -/

/-- The search of a sample with linear response. -/
example (n : ℕ) := lateral_search_newton (.sub (.mul (.const 3) (.var 0)) (.const 200)) (fun _ => ⟨⟨trivial, trivial⟩, trivial⟩) n

example (x : Fin 3 × Fin 3 → ℝ) (i) :
    adGrad ieeeAd ((dpSqrtProg (K := ℝ)).map XR.num) (fun i => .num (x i)) i = .num (adGrad realAd dpSqrtProg x i) :=
  ieee_reverse _ _ _ _ (dpSqrt_tame x)

example (x : Fin 3 × Fin 3 → ℝ) (i) :
    adGrad ieeeAd ((shearVmProg (K := ℝ)).map XR.num) (fun i => .num (x i)) i = .num (adGrad realAd shearVmProg x i) :=
  ieee_reverse _ _ _ _ (shearVm_tame x)

example : ∃ r, adGrad ieeeAd ((safeNormProg (n := 3) (1 / 10 ^ 12 : ℝ)).map XR.num) (fun _ => .num 0) 0 = .num r :=
  ⟨_, ieee_reverse _ (fun _ => 0) _ _ (safeNorm_tame (by norm_num) _)⟩

example : ∃ r, adGrad ieeeAd ((safeInvProg (10 ^ 6 : ℝ) (.var (0 : Fin 1))).map XR.num) (fun _ => .num 0) 0 = .num r :=
  ⟨_, ieee_reverse _ (fun _ => 0) _ _ (safeInv_tame _ trivial)⟩

/-- Without the safeguard the derivative of the inverse of zero is infinite. -/
example : adGrad ieeeAd (.div (.const (.num 1)) (.var (0 : Fin 1))) (fun _ => .num 0) 0 = .ninf := by
  have e : ieeeAd.div (.num 1) (.num (0 * 0)) = .pinf := by
    change (if (0 * 0 : ℝ) = 0 then XR.signedInf 1 else _) = _
    rw [if_pos (by norm_num), XR.signedInf, if_neg one_ne_zero, if_pos one_pos]
  have e1 : ieeeAd.mul (.num 1) .pinf = .pinf := by
    change XR.signedInf 1 = _
    rw [XR.signedInf, if_neg one_ne_zero, if_pos one_pos]
  have e2 : ieeeAd.mul .pinf (.num 1) = .pinf := by
    change XR.signedInf 1 = _
    rw [XR.signedInf, if_neg one_ne_zero, if_pos one_pos]
  simp only [adGrad, Ex.cot, Ex.eval, ieee_one, ieee_mul, e, e1, e2, if_true, ieee_zero]
  rfl

/-- The stress of a triaxial sample: two components with a difference. -/
example : Spec.Tame (fun i : Fin 3 × Fin 3 => if i = (2, 2) then (2 : ℝ) else if i.1 = i.2 then -1 else 0) qProg :=
  q_tame _ ⟨(2, 2), by norm_num⟩

/-- At an isotropic stress the gradient of `get_q_vm` has nine NaNs, with respect to the stress itself. -/
example (i : Fin 3 × Fin 3) : adGrad ieeeAd (((qProg (K := ℝ)).map XR.num).subst fun i => .var i) (fun _ => .num 0) i = .nan :=
  q_grad_nan (fun i => .var i) (fun _ => .num 0) i (fun _ => rfl) ⟨i, rfl⟩ _

/-- At rest so has that of the shear rate. -/
example (i : Fin 3 × Fin 3) : adGrad ieeeAd (((dotGammaProg (K := ℝ)).map XR.num).subst fun i => .var i) (fun _ => .num 0) i = .nan :=
  dotGamma_grad_nan (fun i => .var i) (fun _ => .num 0) i (fun _ => rfl) ⟨i, rfl⟩ _

example (i : Fin 3 × Fin 3) : adGrad ieeeAd (((qSafeProg (-1 : ℝ)).map XR.num).subst fun i => .var i) (fun _ => .num 0) i = .nan ∧
    (((qSafeProg (-1 : ℝ)).map XR.num).subst fun i => .var i).tan ieeeAd (fun _ => .num 0) (fun _ => .num 1) = .num 0 :=
  ⟨qSafe_grad_nan _ (fun i => .var i) (fun _ => .num 0) i (fun _ => rfl) ⟨i, rfl⟩ _, qSafe_forward _ (by norm_num) _ _ _⟩

/-- A residual of the lateral stress of a sample at 100 kPa that should be consolidated to 200 kPa. The plastic branch, not chosen,
divides by `q_tr_safe`. -/
noncomputable def exLateral : Ex XR (Fin 1) :=
  let s := trialDevProg (.const (.num 2000000)) (fun i => (triaxDevProg (1 : ℝ) 0 i).map XR.num) fun _ => .num 0
  let q := ((qSafeProg (-1)).map XR.num).subst s
  .sub (.sel (.const (.num 1)) (.const (.num 0))
    (.add (s (0, 0)) (.mul (.const (.num 100000)) (.exp (.mul (.var 0) (.const (.num 100))))))
    (.div (s (0, 0)) q)) (.const (.num 200000))

/-- 100 kPa are missing, forward mode gives a derivative, and the search stays at zero. -/
example : exLateral.eval ieeeAd (fun _ => .num 0) = .num (-100000) ∧
    (∃ r, 0 < r ∧ exLateral.tan ieeeAd (fun _ => .num 0) (fun _ => .num 1) = .num r) ∧ ∀ n, lateralSearch exLateral n = .num 0 := by
  have h3 : (3 : ℝ) ≠ 0 := by norm_num
  have h1 : ieeeAd.ge (.num 1) (.num 0) = true := (ieee_ge _ _).mpr zero_le_one
  refine ⟨?_, ?_, fun n => lateral_search_stuck (.const (.num 2000000)) exLateral 2000000 1 (-1) rfl ?_ n⟩
  · simp only [exLateral, Ex.eval, h1, if_true, trialDevProg, triaxDevProg, Ex.map, ieee_mul, ieee_add, ieee_sub, ieee_div _ h3, ieee_exp,
      Fin.isValue, show ((0 : Fin 3) = 2) = False by decide, if_false]
    norm_num
  · refine ⟨2000000 / 3 + 10000000, by norm_num, ?_⟩
    simp only [exLateral, Ex.tan, Ex.eval, h1, if_true, trialDevProg, triaxDevProg, Ex.map, ieee_mul, ieee_add, ieee_sub, ieee_div _ h3,
      ieee_div _ (mul_ne_zero h3 h3), ieee_exp, ieee_neg, ieee_zero, ieee_one, Fin.isValue, show ((0 : Fin 3) = 2) = False by decide, if_false]
    norm_num
  · exact Or.inr (Or.inl (Or.inr (Or.inr (Or.inr (Or.inr (by simp [qSafeProg, Spec.Within, Ex.map, Ex.subst]))))))

example (t : MCCTrial ℝ) (hK : 0 < t.KTr) (pc : ℝ) : ∃ r,
    jacfwd ieeeAd (fun i => (mccProg realFns exMCC t pc i).map XR.num) (fun k => .num (![0, Real.log pc] k)) 0 0 = .num r :=
  ⟨_, mcc_jacfwd_number exMCC_clay t hK pc ![0, Real.log pc] le_rfl 0 0⟩

end Hydrax
