import Verif.Lemmas.LatScene
import Verif.Model.Sdf
import Verif.Props.Sdf
import Mathlib.Analysis.Calculus.LineDeriv.Basic

/-!
# Obstacles and the symmetries of the lattice (helper lemmas)
-/

set_option linter.unusedSectionVars false

namespace Hydrax

open Spec

section
variable {K : Type*} [Field K] [LinearOrder K] [IsStrictOrderedRing K] {dim : ℕ}

/-- Whether the symmetry keeps (`1`) or reverses (`-1`) the sense of rotations. -/
def Spec.LatSym.hand (T : LatSym K dim) (h : dim ≤ 3) : K := (T.mat h).det

/-- Image of an axis of rotation. -/
def Spec.LatSym.axial (T : LatSym K dim) (h : dim ≤ 3) (w : Fin 3 → K) : Fin 3 → K :=
  fun i => T.hand h * (T.mat h).mulVec w i

/-- Image of a quaternion. -/
def Spec.LatSym.quat (T : LatSym K dim) (h : dim ≤ 3) (q : Fin 4 → K) : Fin 4 → K :=
  ![q 0, T.axial h (qVec q) 0, T.axial h (qVec q) 1, T.axial h (qVec q) 2]

/-- The moving frame of an obstacle described anew. -/
def Spec.LatSym.frame (T : LatSym K dim) (h : dim ≤ 3) (s : SdfState K dim) : SdfState K dim :=
  { com := T.point s.com, velocity := T.vec s.velocity, angle := T.hand h * s.angle, omega := T.hand h * s.omega
    quat := T.quat h s.quat, omega3 := T.axial h s.omega3 }

/-- The operator `grad` prefers no axis: what it gives for the same function in new coordinates is the same vector. -/
def Spec.LatSym.GradSym (T : LatSym K dim) (grad : ((Fin dim → K) → K) → (Fin dim → K) → Fin dim → K) : Prop :=
  ∀ f f' : (Fin dim → K) → K, (∀ x, f' (T.point x) = f x) → ∀ x, grad f' (T.point x) = T.vec (grad f x)

variable (T : LatSym K dim) (h : dim ≤ 3)

theorem det_sq_orth {R : Mat3 K} (hR : Orthogonal3 R) : R.det * R.det = 1 := by
  have := congrArg Matrix.det hR
  rwa [Matrix.det_mul, Matrix.det_one, Matrix.det_transpose] at this

/-- `R^T (Ru x Rv) = det R (u x v)`. -/
theorem cross3_adj (R : Mat3 K) (u v : Fin 3 → K) :
    R.transpose.mulVec (cross3 (R.mulVec u) (R.mulVec v)) = R.det • cross3 u v := by
  funext i
  fin_cases i <;> simp [Matrix.mulVec, dotProduct, Fin.sum_univ_three, cross3, Matrix.det_fin_three] <;> ring

theorem cross3_orth {R : Mat3 K} (hR : Orthogonal3 R) (u v : Fin 3 → K) :
    cross3 (R.mulVec u) (R.mulVec v) = R.det • R.mulVec (cross3 u v) := by
  have := congrArg R.mulVec (cross3_adj R u v)
  rwa [Matrix.mulVec_mulVec, orth_mul_transpose hR, Matrix.one_mulVec, Matrix.mulVec_smul] at this

theorem cross3_smul (c : K) (u v : Fin 3 → K) : cross3 (fun i => c * u i) v = fun i => c * cross3 u v i := by
  funext i; fin_cases i <;> simp [cross3] <;> ring

theorem cross3_smul_right (c : K) (u v : Fin 3 → K) : cross3 u (fun i => c * v i) = fun i => c * cross3 u v i := by
  funext i; fin_cases i <;> simp [cross3] <;> ring

theorem LatSym.hand_sq : T.hand h * T.hand h = 1 := det_sq_orth (LatSym.mat_orth T h)

theorem LatSym.hand_cases : T.hand h = 1 ∨ T.hand h = -1 := mul_self_eq_one_iff.mp (LatSym.hand_sq T h)

/-- The speed of rotation about an axis is a vector. -/
theorem LatSym.axial_cross (w r : Fin 3 → K) :
    cross3 (T.axial h w) ((T.mat h).mulVec r) = (T.mat h).mulVec (cross3 w r) := by
  unfold Spec.LatSym.axial
  rw [cross3_smul, cross3_orth (LatSym.mat_orth T h)]
  funext i
  simp only [Pi.smul_apply, smul_eq_mul]
  rw [← mul_assoc]
  have := LatSym.hand_sq T h
  unfold Spec.LatSym.hand at this ⊢
  rw [this, one_mul]

/-- Axes of rotation compose like axes of rotation. -/
theorem LatSym.axial_axial (w r : Fin 3 → K) : cross3 (T.axial h w) (T.axial h r) = T.axial h (cross3 w r) := by
  conv_lhs => rw [show T.axial h r = fun i => T.hand h * (T.mat h).mulVec r i from rfl, cross3_smul_right,
    LatSym.axial_cross]
  rfl

theorem mat_dot {R : Mat3 K} (hR : Orthogonal3 R) (u v : Fin 3 → K) :
    ∑ i, R.mulVec u i * R.mulVec v i = ∑ i, u i * v i := by
  have e : ∀ a b : Fin 3 → K, ∑ i, a i * b i = a ⬝ᵥ b := fun a b => rfl
  rw [e, e, Matrix.dotProduct_mulVec, Matrix.vecMul_mulVec, hR, Matrix.vecMul_one]

theorem LatSym.axial_dot (u v : Fin 3 → K) : ∑ i, T.axial h u i * T.axial h v i = ∑ i, u i * v i := by
  rw [← mat_dot (LatSym.mat_orth T h) u v]
  refine Finset.sum_congr rfl fun i _ => ?_
  simp only [Spec.LatSym.axial]
  linear_combination (T.mat h).mulVec u i * (T.mat h).mulVec v i * LatSym.hand_sq T h

theorem pad3_three (v : Fin 3 → K) : pad3 v = v := by
  funext i; rw [pad3_lt _ i i.isLt]

theorem trunc3_three (v : Fin 3 → K) : trunc3 3 v = v := by
  funext i; simp [trunc3]

theorem LatSym.mat_three (T : LatSym K 3) (h : 3 ≤ 3) (v : Fin 3 → K) : (T.mat h).mulVec v = T.vec v := by
  have := LatSym.pad3_vec T h v
  rw [pad3_three, pad3_three] at this
  exact this.symm

theorem LatSym.mat_e3 (T : LatSym K 2) (h : 2 ≤ 3) (c : K) : (T.mat h).mulVec ![0, 0, c] = ![0, 0, c] := by
  have f2 : T.p3 h 2 = 2 := LatSym.p3_ge T h 2 (by decide)
  apply LatSym.ext3 T h
  intro i
  rw [LatSym.mat_mulVec]
  have s2 : T.s3 2 = 1 := LatSym.s3_ge T 2 (by decide)
  by_cases hi : i = 2
  · subst hi; rw [f2, s2]; simp
  · have h2 : T.p3 h i ≠ 2 := fun e => hi ((T.p3 h).injective (e.trans f2.symm))
    have z : ∀ k : Fin 3, k ≠ 2 → (![0, 0, c] : Fin 3 → K) k = 0 := by
      intro k hk; fin_cases k <;> simp_all
    rw [z _ hi, z _ h2, mul_zero]

/-- The velocity of the surface due to rotation. -/
theorem LatSym.spin : (dim : ℕ) → (T : LatSym K dim) → (h : dim ≤ 3) → (s : SdfState K dim) → (r : Fin dim → K) →
    spinVel dim (T.frame h s) (T.vec r) = T.vec (spinVel dim s r)
  | 2, T, h, s, r => by
    have e : ∀ (w : K) (u : Fin 2 → K), (![-w * u 1, w * u 0] : Fin 2 → K) = trunc3 2 (cross3 ![0, 0, w] (pad3 u)) := by
      intro w u
      funext a; fin_cases a <;> simp [trunc3, cross3, pad3]
    change (![-(T.hand h * s.omega) * T.vec r 1, (T.hand h * s.omega) * T.vec r 0] : Fin 2 → K)
      = T.vec ![-s.omega * r 1, s.omega * r 0]
    rw [e, e, LatSym.pad3_vec T h, ← LatSym.trunc3_mat T h, ← LatSym.axial_cross]
    congr 2
    unfold Spec.LatSym.axial
    rw [LatSym.mat_e3]
    funext i; fin_cases i <;> simp
  | 3, T, h, s, r => by
    change cross3 (T.axial h s.omega3) (T.vec r) = T.vec (cross3 s.omega3 r)
    rw [← LatSym.mat_three T h, ← LatSym.mat_three T h, LatSym.axial_cross]
  | 0, T, _, _, _ => by change (fun _ => 0) = T.vec (fun _ => 0); rw [LatSym.vec_zero]
  | 1, T, _, _, _ => by change (fun _ => 0) = T.vec (fun _ => 0); rw [LatSym.vec_zero]
  | _ + 4, _, h, _, _ => absurd h (by omega)

theorem LatSym.sdfVelocity (s : SdfState K dim) (x : Fin dim → K) :
    sdfVelocity (T.frame h s) (T.point x) = T.vec (Hydrax.sdfVelocity s x) := by
  funext a
  have e : (fun b => T.point x b - (T.frame h s).com b) = T.vec (fun b => x b - s.com b) := by
    funext b; exact LatSym.point_sub T x s.com b
  have e2 := congrFun (LatSym.spin dim T h s (fun b => x b - s.com b)) a
  unfold Hydrax.sdfVelocity
  rw [e, e2, LatSym.vec_add]
  rfl

theorem qVec_quat (q : Fin 4 → K) : qVec (T.quat h q) = T.axial h (qVec q) := by
  funext i; fin_cases i <;> rfl

/-- `integrateQuat` in terms of scalar and vector part. -/
def Spec.quatStep (q : Fin 4 → K) (w : Fin 3 → K) (dt : K) : Fin 4 → K :=
  let v := fun i => qVec q i + 1 / 2 * dt * (q 0 * w i + cross3 w (qVec q) i)
  ![q 0 + 1 / 2 * dt * -(∑ i, w i * qVec q i), v 0, v 1, v 2]

theorem integrateQuat_eq (fn : MathFns K) (q : Fin 4 → K) (w : Fin 3 → K) (dt : K) :
    integrateQuat fn q w dt = fun k => quatStep q w dt k / (fn.sqrt (∑ j, quatStep q w dt j ^ 2) + 1 / 10 ^ 12) := by
  have : ∀ k, q k + 1 / 2 * dt * (![-w 0 * q 1 - w 1 * q 2 - w 2 * q 3, w 0 * q 0 + w 1 * q 3 - w 2 * q 2,
      -w 0 * q 3 + w 1 * q 0 + w 2 * q 1, w 0 * q 2 - w 1 * q 1 + w 2 * q 0] : Fin 4 → K) k = quatStep q w dt k := by
    intro k
    fin_cases k <;> simp only [quatStep, qVec, cross3, Fin.sum_univ_three, Matrix.cons_val, Fin.isValue, Fin.zero_eta, Fin.mk_one,
      Fin.reduceFinMk] <;> ring
  unfold integrateQuat
  simp only [this]

theorem LatSym.quatStep (q : Fin 4 → K) (w : Fin 3 → K) (dt : K) :
    quatStep (T.quat h q) (T.axial h w) dt = T.quat h (Spec.quatStep q w dt) := by
  have e0 : ∀ p : Fin 4 → K, T.quat h p 0 = p 0 := fun _ => rfl
  have lin : ∀ i, T.axial h (qVec q) i + 1 / 2 * dt * (q 0 * T.axial h w i + T.axial h (cross3 w (qVec q)) i)
      = T.axial h (qVec (Spec.quatStep q w dt)) i := by
    intro i
    have ev : qVec (Spec.quatStep q w dt) = fun i => qVec q i + 1 / 2 * dt * (q 0 * w i + cross3 w (qVec q) i) := by
      funext i; fin_cases i <;> rfl
    rw [ev]
    simp only [Spec.LatSym.axial, Matrix.mulVec, dotProduct, Fin.sum_univ_three]
    ring
  unfold Spec.quatStep
  simp only [qVec_quat, LatSym.axial_axial, LatSym.axial_dot, e0, lin]
  rfl

theorem LatSym.quat_sq (q : Fin 4 → K) : ∑ j, T.quat h q j ^ 2 = ∑ j, q j ^ 2 := by
  have := LatSym.axial_dot T h (qVec q) (qVec q)
  rw [Fin.sum_univ_three, Fin.sum_univ_three] at this
  rw [Fin.sum_univ_four, Fin.sum_univ_four]
  simp only [Spec.LatSym.quat, Matrix.cons_val]
  simp only [qVec, Matrix.cons_val] at this ⊢
  linear_combination this

theorem LatSym.quat_div (q : Fin 4 → K) (c : K) : T.quat h (fun k => q k / c) = fun k => T.quat h q k / c := by
  have : ∀ i, T.axial h (qVec fun k => q k / c) i = T.axial h (qVec q) i / c := by
    intro i
    have ev : (qVec fun k => q k / c) = fun i => qVec q i / c := by funext i; fin_cases i <;> rfl
    rw [ev]
    simp only [Spec.LatSym.axial, Matrix.mulVec, dotProduct, Fin.sum_univ_three]
    ring
  funext k
  fin_cases k
  · rfl
  · exact this 0
  · exact this 1
  · exact this 2

theorem LatSym.integrateQuat (fn : MathFns K) (q : Fin 4 → K) (w : Fin 3 → K) (dt : K) :
    integrateQuat fn (T.quat h q) (T.axial h w) dt = T.quat h (Hydrax.integrateQuat fn q w dt) := by
  rw [integrateQuat_eq, integrateQuat_eq, LatSym.quatStep, LatSym.quat_sq, LatSym.quat_div]

/-- Movement of the frame. -/
theorem LatSym.updateKin (fn : MathFns K) (s : SdfState K dim) (dt : K) :
    updateKin fn (T.frame h s) dt = T.frame h (Hydrax.updateKin fn s dt) := by
  have ec : (fun a => T.point s.com a + T.vec s.velocity a * dt) = T.point fun a => s.com a + s.velocity a * dt := by
    funext a
    simp only [Spec.LatSym.point, Spec.LatSym.vec]
    ring
  unfold Hydrax.updateKin
  split_ifs
  · simp only [Spec.LatSym.frame, ec]
    congr 1
    ring
  · simp only [Spec.LatSym.frame, ec, LatSym.integrateQuat]

/-- The cosine is even, the sine odd. -/
structure Spec.TrigParity (fn : MathFns K) : Prop where
  cos : ∀ x, fn.cos (-x) = fn.cos x
  sin : ∀ x, fn.sin (-x) = -fn.sin x

theorem quat_inv_image (q : Fin 4 → K) : quatInv (T.quat h q) = T.quat h (quatInv q) := by
  have : ∀ i, T.axial h (qVec (quatInv q)) i = -T.axial h (qVec q) i := by
    intro i
    have ev : qVec (quatInv q) = fun i => -qVec q i := by funext i; fin_cases i <;> rfl
    rw [ev]
    simp only [Spec.LatSym.axial, Matrix.mulVec, dotProduct, Fin.sum_univ_three]
    ring
  funext k
  fin_cases k
  · rfl
  · exact (this 0).symm
  · exact (this 1).symm
  · exact (this 2).symm

/-- The local frame moves along. -/
theorem LatSym.rotInv {fn : MathFns K} (hf : TrigParity fn) : (dim : ℕ) → (T : LatSym K dim) → (h : dim ≤ 3) →
    (s : SdfState K dim) → (v : Fin dim → K) → rotInv fn dim (T.frame h s) (T.vec v) = T.vec (rotInv fn dim s v)
  | 2, T, h, s, v => by
    have key : ∀ (c w : K) (u : Fin 2 → K), (![c * u 0 + w * u 1, -w * u 0 + c * u 1] : Fin 2 → K)
        = fun a => c * u a - trunc3 2 (cross3 ![0, 0, w] (pad3 u)) a := by
      intro c w u
      funext a; fin_cases a <;> simp [trunc3, cross3, pad3]
      ring
    have spin : ∀ (w : K) (u : Fin 2 → K), trunc3 2 (cross3 ![0, 0, T.hand h * w] (pad3 (T.vec u)))
        = T.vec (trunc3 2 (cross3 ![0, 0, w] (pad3 u))) := by
      intro w u
      rw [LatSym.pad3_vec T h, ← LatSym.trunc3_mat T h, ← LatSym.axial_cross]
      congr 2
      unfold Spec.LatSym.axial
      rw [LatSym.mat_e3]
      funext i; fin_cases i <;> simp
    have hc : fn.cos (T.hand h * s.angle) = fn.cos s.angle := by
      rcases LatSym.hand_cases T h with e | e
      · rw [e, one_mul]
      · rw [e, neg_one_mul, hf.cos]
    have hsn : fn.sin (T.hand h * s.angle) = T.hand h * fn.sin s.angle := by
      rcases LatSym.hand_cases T h with e | e
      · rw [e, one_mul, one_mul]
      · rw [e, neg_one_mul, neg_one_mul, hf.sin]
    change rot2Inv fn (T.hand h * s.angle) (T.vec v) = T.vec (rot2Inv fn s.angle v)
    unfold rot2Inv
    simp only [hc, hsn]
    rw [key, key, spin]
    funext a
    rw [LatSym.vec_sub, LatSym.vec_smul]
  | 3, T, h, s, v => by
    change quatRotate (quatInv (T.quat h s.quat)) (T.vec v) = T.vec (quatRotate (quatInv s.quat) v)
    rw [quat_inv_image]
    generalize quatInv s.quat = q
    unfold quatRotate
    simp only [qVec_quat]
    rw [← LatSym.mat_three T h v, LatSym.axial_cross, LatSym.axial_cross, ← LatSym.mat_three T h]
    have e0 : T.quat h q 0 = q 0 := rfl
    funext a
    simp only [e0, Matrix.mulVec, dotProduct, Fin.sum_univ_three]
    ring
  | 0, _, _, _, _ => rfl
  | 1, _, _, _, _ => rfl
  | _ + 4, _, h, _, _ => absurd h (by omega)

theorem LatSym.toLocal {fn : MathFns K} (hf : TrigParity fn) (s : SdfState K dim) (x : Fin dim → K) :
    toLocal fn (T.frame h s) (T.point x) = T.vec (Hydrax.toLocal fn s x) := by
  unfold Hydrax.toLocal
  rw [← LatSym.rotInv hf dim T h]
  congr 1
  funext b
  exact LatSym.point_sub T x s.com b

theorem LatSym.autoNormal {grad : ((Fin dim → K) → K) → (Fin dim → K) → Fin dim → K} (hg : T.GradSym grad) (sqrt : K → K)
    {f f' : (Fin dim → K) → K} (hf : ∀ x, f' (T.point x) = f x) (x : Fin dim → K) :
    autoNormal sqrt grad f' (T.point x) = T.vec (Hydrax.autoNormal sqrt grad f x) := by
  have e : ∑ b, T.vec (grad f x) b ^ 2 = ∑ b, grad f x b ^ 2 := by
    simp only [pow_two]; exact LatSym.vec_dot T _ _
  unfold Hydrax.autoNormal
  rw [hg f f' hf x, e]
  funext a
  simp only [Spec.LatSym.vec]
  ring

/-- **C91 (obstacles).** An obstacle with the methods of the base class; `dist'` is the shape `dist` in the new axes. -/
theorem baseSdf_sym {fn : MathFns K} (hf : TrigParity fn) {grad : ((Fin dim → K) → K) → (Fin dim → K) → Fin dim → K}
    (hg : T.GradSym grad) {dist friction dist' friction' : (Fin dim → K) → K} (hd : ∀ y, dist' (T.vec y) = dist y)
    (hfr : ∀ y, friction' (T.vec y) = friction y) :
    T.SdfSym (T.frame h) (baseSdf fn grad dist friction) (baseSdf fn grad dist' friction') where
  kin := LatSym.updateKin T h fn
  dist s x := by simp only [baseSdf, LatSym.toLocal T h hf, hd]
  normal s x := LatSym.autoNormal T hg fn.sqrt (fun y => by simp only [LatSym.toLocal T h hf, hd]) x
  velocity s x _ := LatSym.sdfVelocity T h s x
  friction s x := by simp only [baseSdf, LatSym.toLocal T h hf, hfr]

/-- **C91 (obstacles).** Balls. -/
theorem sphereSdf_sym (fn : MathFns K) {grad : ((Fin dim → K) → K) → (Fin dim → K) → Fin dim → K} (hg : T.GradSym grad) (r : K) :
    T.SdfSym (T.frame h) (sphereSdf fn grad r) (sphereSdf fn grad r) := by
  have hd : ∀ (s : SdfState K dim) (x : Fin dim → K), sphereDist fn r (fun a => T.point x a - (T.frame h s).com a)
      = sphereDist fn r fun a => x a - s.com a := by
    intro s x
    have e : (fun b => T.point x b - (T.frame h s).com b) = T.vec (fun b => x b - s.com b) := by
      funext b; exact LatSym.point_sub T x s.com b
    unfold sphereDist norm2
    rw [e]
    simp only [pow_two]
    rw [LatSym.vec_dot]
  exact { kin := LatSym.updateKin T h fn, dist := hd
          normal := fun s x => LatSym.autoNormal T hg fn.sqrt (hd s) x
          velocity := fun s x _ => LatSym.sdfVelocity T h s x, friction := fun _ _ => rfl }

end

/-- The partial derivatives, used as gradient, prefer no axis. -/
theorem partials_gradSym {dim : ℕ} (T : LatSym ℝ dim) :
    T.GradSym fun f x a => lineDeriv ℝ f x (Pi.single a 1) := by
  intro f f' hf x
  apply LatSym.vec_ext T
  intro d
  rw [LatSym.vec_perm]
  have e : ∀ t : ℝ, T.point x + t • Pi.single (T.perm d) 1 = T.point (x + t • (T.sg d • Pi.single d 1)) := by
    intro t
    apply LatSym.vec_ext T
    intro k
    simp only [Spec.LatSym.point, Pi.add_apply, Pi.smul_apply, smul_eq_mul, LatSym.vec_perm]
    by_cases hk : k = d
    · subst hk
      simp only [Pi.single_eq_same]
      linear_combination -t * LatSym.sg_sq T k
    · rw [Pi.single_eq_of_ne (fun e => hk (T.perm.injective e)), Pi.single_eq_of_ne hk]
      ring
  have e2 : lineDeriv ℝ f' (T.point x) (Pi.single (T.perm d) 1) = lineDeriv ℝ f x (T.sg d • Pi.single d 1) := by
    unfold lineDeriv
    simp only [e, hf]
  exact e2.trans (by rw [lineDeriv_smul, smul_eq_mul])

theorem realFns_parity : TrigParity realFns := ⟨Real.cos_neg, Real.sin_neg⟩

end Hydrax
