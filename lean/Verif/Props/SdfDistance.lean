import Verif.Props.Sdf
import Mathlib.Analysis.InnerProductSpace.PiL2

/-!
# Obstacle primitives report signed distance (C46)
-/

set_option linter.unusedSectionVars false

namespace Hydrax

open Spec

/-- Euclidean distance. -/
noncomputable def Spec.eDist {n : ℕ} (x y : Fin n → ℝ) : ℝ := Real.sqrt (∑ a, (x a - y a) ^ 2)

/-- Distance of a point from a set. -/
noncomputable def Spec.distTo {n : ℕ} (S : Set (Fin n → ℝ)) (x : Fin n → ℝ) : ℝ := sInf {r | ∃ y ∈ S, r = eDist x y}

/-- Signed distance of a point from a solid: distance to the solid outside, minus distance to its complement inside. -/
noncomputable def Spec.signedDist {n : ℕ} (S : Set (Fin n → ℝ)) (x : Fin n → ℝ) : ℝ := distTo S x - distTo Sᶜ x

section
variable {n : ℕ}

theorem eDist_norm (x y : Fin n → ℝ) : eDist x y = ‖(WithLp.toLp 2 x : EuclideanSpace ℝ (Fin n)) - WithLp.toLp 2 y‖ := by
  rw [EuclideanSpace.norm_eq, eDist]
  simp

theorem eDist_nonneg (x y : Fin n → ℝ) : 0 ≤ eDist x y := Real.sqrt_nonneg _

theorem eDist_self (x : Fin n → ℝ) : eDist x x = 0 := by simp [eDist]

theorem eDist_comm (x y : Fin n → ℝ) : eDist x y = eDist y x := by rw [eDist_norm, eDist_norm, norm_sub_rev]

theorem eDist_triangle (x y z : Fin n → ℝ) : eDist x z ≤ eDist x y + eDist y z := by
  rw [eDist_norm, eDist_norm, eDist_norm]
  exact norm_sub_le_norm_sub_add_norm_sub _ _ _

theorem eDist_coord (x y : Fin n → ℝ) (a : Fin n) : |x a - y a| ≤ eDist x y := by
  rw [← Real.sqrt_sq_eq_abs]
  exact Real.sqrt_le_sqrt (Finset.single_le_sum (f := fun a => (x a - y a) ^ 2) (fun _ _ => sq_nonneg _) (Finset.mem_univ a))

/-- Moving along one direction. -/
theorem eDist_along (x v : Fin n → ℝ) (t : ℝ) : eDist x (fun a => x a + t * v a) = |t| * eDist v fun _ => 0 := by
  simp only [eDist, sub_zero]
  have : ∀ a, (x a - (x a + t * v a)) ^ 2 = t ^ 2 * v a ^ 2 := fun a => by ring
  simp only [this]
  rw [← Finset.mul_sum, Real.sqrt_mul (sq_nonneg _), Real.sqrt_sq_eq_abs]

theorem bddBelow_dists (S : Set (Fin n → ℝ)) (x : Fin n → ℝ) : BddBelow {r | ∃ y ∈ S, r = eDist x y} :=
  ⟨0, by rintro _ ⟨y, -, rfl⟩; exact eDist_nonneg _ _⟩

theorem distTo_eq {S : Set (Fin n → ℝ)} {x : Fin n → ℝ} {d : ℝ} (h1 : ∀ y ∈ S, d ≤ eDist x y)
    (h2 : ∀ ε > 0, ∃ y ∈ S, eDist x y ≤ d + ε) : distTo S x = d := by
  apply le_antisymm
  · refine le_of_forall_pos_le_add fun ε hε => ?_
    obtain ⟨y, hy, h⟩ := h2 ε hε
    exact (csInf_le (bddBelow_dists S x) ⟨y, hy, rfl⟩).trans h
  · refine le_csInf ?_ ?_
    · obtain ⟨y, hy, -⟩ := h2 1 one_pos
      exact ⟨_, y, hy, rfl⟩
    · rintro _ ⟨y, hy, rfl⟩
      exact h1 y hy

theorem distTo_self {S : Set (Fin n → ℝ)} {x : Fin n → ℝ} (h : x ∈ S) : distTo S x = 0 :=
  distTo_eq (fun _ _ => eDist_nonneg _ _) fun ε hε => ⟨x, h, by rw [eDist_self]; linarith⟩

theorem signedDist_eq {S : Set (Fin n → ℝ)} {x : Fin n → ℝ} {d : ℝ}
    (hin : x ∈ S → (∀ y, y ∉ S → -d ≤ eDist x y) ∧ ∀ ε > 0, ∃ y, y ∉ S ∧ eDist x y ≤ -d + ε)
    (hout : x ∉ S → (∀ y ∈ S, d ≤ eDist x y) ∧ ∀ ε > 0, ∃ y ∈ S, eDist x y ≤ d + ε) : signedDist S x = d := by
  unfold signedDist
  by_cases h : x ∈ S
  · rw [distTo_self h, distTo_eq (S := Sᶜ) (hin h).1 (hin h).2]; ring
  · rw [distTo_eq (hout h).1 (hout h).2, distTo_self (S := Sᶜ) h]; ring

/-- Signed distance in other coordinates. -/
theorem signedDist_preimage {S : Set (Fin n → ℝ)} {T : (Fin n → ℝ) → Fin n → ℝ} (hT : ∀ x y, eDist (T x) (T y) = eDist x y)
    (hs : Function.Surjective T) (x : Fin n → ℝ) : signedDist {y | T y ∈ S} x = signedDist S (T x) := by
  have key : ∀ S : Set (Fin n → ℝ), distTo {y | T y ∈ S} x = distTo S (T x) := by
    intro S
    unfold distTo
    congr 1
    ext r
    constructor
    · rintro ⟨y, hy, rfl⟩
      exact ⟨T y, hy, (hT x y).symm⟩
    · rintro ⟨y, hy, rfl⟩
      obtain ⟨w, rfl⟩ := hs y
      exact ⟨w, hy, hT x w⟩
  unfold signedDist
  rw [key S, ← key Sᶜ]
  rfl

/-! ### Sphere -/

theorem norm2_eDist (x : Fin n → ℝ) : norm2 realFns x = eDist x fun _ => 0 := by simp [norm2, eDist]

theorem eDist_shift (x y c : Fin n → ℝ) : eDist (fun a => x a - c a) (fun a => y a - c a) = eDist x y := by
  simp only [eDist]
  congr 1
  exact Finset.sum_congr rfl fun a _ => by ring

/-- From any point one can move the distance `t` straight away from (or, up to the centre, towards) `c`. -/
theorem radial_move (x c : Fin (n + 1) → ℝ) {t : ℝ} (ht : 0 ≤ eDist x c + t) :
    ∃ y, eDist x y = |t| ∧ eDist y c = eDist x c + t ∧ ∃ k, 0 ≤ k ∧ ∀ a, a ≠ 0 → y a = c a + k * (x a - c a) := by
  obtain ⟨u, hu, hx, k, hk0, hk⟩ : ∃ u : Fin (n + 1) → ℝ, eDist u (fun _ => 0) = 1 ∧
      (∀ a, x a - c a = eDist x c * u a) ∧ ∃ k, 0 ≤ k ∧ ∀ a, a ≠ 0 → u a = k * (x a - c a) := by
    by_cases h : eDist x c = 0
    · have h0 : ∀ a, x a - c a = 0 := by
        intro a
        have := eDist_coord x c a
        rw [h] at this
        exact abs_nonpos_iff.mp this
      refine ⟨fun a => if a = 0 then 1 else 0, ?_, fun a => by rw [h, zero_mul, h0], 0, le_rfl, fun a ha => ?_⟩
      · simp [eDist]
      · simp only [if_neg ha, zero_mul]
    · refine ⟨fun a => (x a - c a) / eDist x c, ?_, fun a => by field_simp, 1 / eDist x c,
        by have := eDist_nonneg x c; positivity, fun a _ => by ring⟩
      have := eDist_along (fun _ => 0) (fun a => x a - c a) (1 / eDist x c)
      rw [eDist_comm] at this
      have e : (fun a => (0 : ℝ) + 1 / eDist x c * (x a - c a)) = fun a => (x a - c a) / eDist x c := by
        funext a; ring
      rw [e] at this
      rw [this, abs_of_nonneg (by have := eDist_nonneg x c; positivity)]
      have h2 := eDist_shift x c c
      simp only [sub_self] at h2
      rw [h2]; field_simp
  refine ⟨fun a => x a + t * u a, by rw [eDist_along, hu, mul_one], ?_, (eDist x c + t) * k, mul_nonneg ht hk0,
    fun a ha => ?_⟩
  rotate_left
  · have := hx a
    rw [mul_assoc, ← hk a ha, add_mul, ← this]; ring
  have e : (fun a => x a + t * u a) = fun a => c a + (eDist x c + t) * u a := by
    funext a; rw [add_mul, ← hx a]; ring
  rw [e, eDist_comm, eDist_along, hu, mul_one, abs_of_nonneg ht]

/-- The ball. -/
def Spec.ball (c : Fin n → ℝ) (r : ℝ) : Set (Fin n → ℝ) := {y | eDist y c ≤ r}

theorem signedDist_ball (c : Fin (n + 1) → ℝ) {r : ℝ} (hr : 0 ≤ r) (x : Fin (n + 1) → ℝ) :
    signedDist (ball c r) x = eDist x c - r := by
  refine signedDist_eq (fun hx => ⟨fun y hy => ?_, fun ε hε => ?_⟩) (fun hx => ⟨fun y hy => ?_, fun ε hε => ?_⟩)
  · have := eDist_triangle y x c
    rw [eDist_comm y x] at this
    have hy : r < eDist y c := not_le.mp hy
    linarith
  · have hx : eDist x c ≤ r := hx
    obtain ⟨y, h1, h2, -⟩ := radial_move x c (t := r - eDist x c + ε) (by linarith)
    refine ⟨y, fun hy => ?_, ?_⟩
    · have hy : eDist y c ≤ r := hy
      linarith
    · rw [h1, abs_of_nonneg (by linarith)]; linarith
  · have := eDist_triangle x y c
    have hy : eDist y c ≤ r := hy
    linarith
  · have hx : r < eDist x c := not_le.mp hx
    obtain ⟨y, h1, h2, -⟩ := radial_move x c (t := r - eDist x c) (by linarith)
    refine ⟨y, ?_, ?_⟩
    · change eDist y c ≤ r; linarith
    · rw [h1, abs_of_nonpos (by linarith)]; linarith

/-- **C46**: `SphereSDF` reports the signed distance of the ball around its centre, in every pose. -/
theorem sphere_signed_distance (grad : ((Fin (n + 1) → ℝ) → ℝ) → (Fin (n + 1) → ℝ) → Fin (n + 1) → ℝ) {r : ℝ} (hr : 0 ≤ r)
    (s : SdfState ℝ (n + 1)) (x : Fin (n + 1) → ℝ) :
    (sphereSdf realFns grad r).dist s x = signedDist (ball s.com r) x := by
  rw [signedDist_ball _ hr]
  simp only [sphereSdf, sphereDist]
  rw [norm2_eDist]
  have := eDist_shift x s.com s.com
  simp only [sub_self] at this
  rw [this]

example (grad : ((Fin 2 → ℝ) → ℝ) → (Fin 2 → ℝ) → Fin 2 → ℝ) (x : Fin 2 → ℝ) :
    (sphereSdf realFns grad (1 / 2)).dist (SdfState.create ![1, 2]) x = signedDist (ball (SdfState.create ![1, 2]).com (1 / 2)) x :=
  sphere_signed_distance grad (by norm_num) _ x

/-! ### Plane -/

theorem dot_abs_le (u v : Fin n → ℝ) : |∑ a, u a * v a| ≤ eDist u (fun _ => 0) * eDist v fun _ => 0 := by
  simp only [eDist, sub_zero]
  rw [← Real.sqrt_mul (Finset.sum_nonneg fun _ _ => sq_nonneg _), ← Real.sqrt_sq_eq_abs]
  exact Real.sqrt_le_sqrt (Finset.sum_mul_sq_le_sq_mul_sq _ _ _)

/-- The half space behind a plane through the origin. -/
def Spec.halfSpace (m : Fin n → ℝ) : Set (Fin n → ℝ) := {y | ∑ a, y a * m a ≤ 0}

theorem signedDist_halfSpace {m : Fin n → ℝ} (hm : eDist m (fun _ => 0) ≠ 0) (x : Fin n → ℝ) :
    signedDist (halfSpace m) x = (∑ a, x a * m a) / eDist m fun _ => 0 := by
  set N := eDist m fun _ => 0 with hN
  have hN0 : 0 < N := lt_of_le_of_ne (eDist_nonneg _ _) (Ne.symm hm)
  have hsq : ∑ a, m a * m a = N ^ 2 := by
    rw [hN]; simp only [eDist, sub_zero]
    rw [Real.sq_sqrt (Finset.sum_nonneg fun _ _ => sq_nonneg _)]
    exact Finset.sum_congr rfl fun a _ => by ring
  have hlip : ∀ y : Fin n → ℝ, |(∑ a, x a * m a) - ∑ a, y a * m a| ≤ eDist x y * N := by
    intro y
    have := dot_abs_le (fun a => x a - y a) m
    have e := eDist_shift x y y
    simp only [sub_self] at e
    rw [e] at this
    rw [← Finset.sum_sub_distrib]
    simpa [sub_mul] using this
  have hmove : ∀ t : ℝ, eDist x (fun a => x a + t / N * m a) = |t| ∧
      ∑ a, (x a + t / N * m a) * m a = (∑ a, x a * m a) + t * N := by
    intro t
    constructor
    · rw [eDist_along, ← hN, abs_div, abs_of_pos hN0]; field_simp
    · simp only [add_mul, Finset.sum_add_distrib, mul_assoc]
      rw [← Finset.mul_sum, hsq]; field_simp
  set P := ∑ a, x a * m a with hP
  refine signedDist_eq (fun hx => ⟨fun y hy => ?_, fun ε hε => ?_⟩) (fun hx => ⟨fun y hy => ?_, fun ε hε => ?_⟩)
  · have hy : 0 < ∑ a, y a * m a := not_le.mp hy
    have := (abs_le.mp (hlip y)).1
    rw [← neg_div, div_le_iff₀ hN0]
    linarith
  · have hx : P ≤ 0 := hx
    obtain ⟨h1, h2⟩ := hmove (-(P / N) + ε)
    refine ⟨_, fun hy => ?_, le_of_eq (h1.trans (abs_of_nonneg ?_))⟩
    · have hy : ∑ a, (x a + (-(P / N) + ε) / N * m a) * m a ≤ 0 := hy
      rw [h2, add_mul, neg_mul, div_mul_cancel₀ _ hN0.ne'] at hy
      nlinarith
    · have : P / N ≤ 0 := div_nonpos_of_nonpos_of_nonneg hx hN0.le
      linarith
  · have hy : ∑ a, y a * m a ≤ 0 := hy
    have := (abs_le.mp (hlip y)).2
    rw [div_le_iff₀ hN0]
    linarith
  · have hx : 0 < P := not_le.mp hx
    obtain ⟨h1, h2⟩ := hmove (-(P / N))
    refine ⟨fun a => x a + -(P / N) / N * m a, ?_, ?_⟩
    · change ∑ a, (x a + -(P / N) / N * m a) * m a ≤ 0
      rw [h2, neg_mul, div_mul_cancel₀ _ hN0.ne']; linarith
    · rw [h1, abs_neg, abs_of_pos (by positivity)]; linarith

/-! ### Poses -/

theorem toLocal_isometry2 (s : SdfState ℝ 2) : (∀ x y, eDist (toLocal realFns s x) (toLocal realFns s y) = eDist x y) ∧
    Function.Surjective (toLocal realFns s) := by
  constructor
  · intro x y
    have h := fun w => (rot2_rigid s.angle 0 w 0).2.2.2.2.2.1
    have ex : ∀ w, toLocal realFns s w = rot2 realFns (-s.angle) fun b => w b - s.com b :=
      fun w => h fun b => w b - s.com b
    rw [ex, ex]
    simp only [eDist]
    congr 1
    simp only [rot2_sub]
    have := (rot2_rigid (-s.angle) 0 (fun b => x b - s.com b - (y b - s.com b)) fun b => x b - s.com b - (y b - s.com b)).1
    simp only [Fin.sum_univ_two, pow_two]
    rw [this]
    ring
  · intro X
    refine ⟨fun a => s.com a + rot2 realFns s.angle X a, ?_⟩
    have h := (rot2_rigid s.angle 0 X 0).2.2.1
    have : (fun a => s.com a + rot2 realFns s.angle X a - s.com a) = rot2 realFns s.angle X := by funext a; ring
    simp only [toLocal, rotInv]
    rw [this, h]

theorem toLocal_isometry3 (s : SdfState ℝ 3) (hs : UnitQuat s.quat) :
    (∀ x y, eDist (toLocal realFns s x) (toLocal realFns s y) = eDist x y) ∧ Function.Surjective (toLocal realFns s) := by
  constructor
  · intro x y
    have ex : ∀ w, toLocal realFns s w = quatRotate (quatInv s.quat) fun b => w b - s.com b := fun w => rfl
    rw [ex, ex]
    simp only [eDist]
    congr 1
    simp only [quatRotate_sub]
    have := (quatRotate_rigid (unitQuat_inv hs) (fun b => x b - s.com b - (y b - s.com b))
      fun b => x b - s.com b - (y b - s.com b)).1
    simp only [inner3] at this
    simp only [Fin.sum_univ_three, pow_two]
    rw [this]
    ring
  · intro X
    refine ⟨fun a => s.com a + quatRotate s.quat X a, ?_⟩
    have : (fun a => s.com a + quatRotate s.quat X a - s.com a) = quatRotate s.quat X := by funext a; ring
    simp only [toLocal, rotInv]
    rw [this, (quatRotate_inv hs X).1]

/-- The poses of the solver: planar, or spatial with a unit quaternion. -/
def Spec.ProperPose : (dim : ℕ) → SdfState ℝ dim → Prop
  | 2, _ => True
  | 3, s => UnitQuat s.quat
  | _, _ => False

theorem toLocal_isometry : (dim : ℕ) → (s : SdfState ℝ dim) → ProperPose dim s →
    (∀ x y, eDist (toLocal realFns s x) (toLocal realFns s y) = eDist x y) ∧ Function.Surjective (toLocal realFns s)
  | 0, _, h => h.elim
  | 1, _, h => h.elim
  | 2, s, _ => toLocal_isometry2 s
  | 3, s, h => toLocal_isometry3 s h
  | _ + 4, _, h => h.elim

/-- The solid `S` given in local coordinates, in the pose `s`. -/
def Spec.posed (s : SdfState ℝ n) (S : Set (Fin n → ℝ)) : Set (Fin n → ℝ) := {y | toLocal realFns s y ∈ S}

theorem signedDist_posed {s : SdfState ℝ n} (h : ProperPose n s) (S : Set (Fin n → ℝ)) (x : Fin n → ℝ) :
    signedDist (posed s S) x = signedDist S (toLocal realFns s x) :=
  signedDist_preimage (toLocal_isometry n s h).1 (toLocal_isometry n s h).2 x

/-- **C46**: `PlaneSDF` reports the signed distance of the half space behind it up to the constant factor
`|n| / (|n| + 1e-12)` of its normalisation. -/
theorem plane_signed_distance (grad : ((Fin n → ℝ) → ℝ) → (Fin n → ℝ) → Fin n → ℝ) (friction : (Fin n → ℝ) → ℝ)
    {m : Fin n → ℝ} (hm : norm2 realFns m ≠ 0) {s : SdfState ℝ n} (hs : ProperPose n s) (x : Fin n → ℝ) :
    (baseSdf realFns grad (planeDist (planeNormal realFns m)) friction).dist s x =
      signedDist (posed s (halfSpace m)) x * (norm2 realFns m / (norm2 realFns m + 1 / 10 ^ 12)) := by
  rw [signedDist_posed hs, signedDist_halfSpace (by rwa [norm2_eDist] at hm), ← norm2_eDist]
  simp only [baseSdf, planeDist, planeNormal, dotv]
  have : ∀ a, toLocal realFns s x a * (m a / (norm2 realFns m + 1 / 10 ^ 12)) =
      toLocal realFns s x a * m a / (norm2 realFns m + 1 / 10 ^ 12) := fun a => by ring
  simp only [this]
  rw [← Finset.sum_div]
  field_simp

/-! ### Box -/

/-- The box with half sizes `h`. -/
def Spec.boxSolid (h : Fin n → ℝ) : Set (Fin n → ℝ) := {y | ∀ a, |y a| ≤ h a}

theorem maxv_ge {K : Type*} [LinearOrder K] {m : ℕ} (f : Fin (m + 1) → K) (i : Fin (m + 1)) : f i ≤ maxv f := Finset.le_sup' _ (Finset.mem_univ i)

theorem exists_maxv {K : Type*} [LinearOrder K] {m : ℕ} (f : Fin (m + 1) → K) : ∃ i, maxv f = f i := by
  obtain ⟨i, -, h⟩ := Finset.exists_mem_eq_sup' (s := Finset.univ) ⟨0, Finset.mem_univ 0⟩ f
  exact ⟨i, h⟩

theorem signedDist_box {h : Fin (n + 1) → ℝ} (h0 : ∀ a, 0 ≤ h a) (x : Fin (n + 1) → ℝ) :
    signedDist (boxSolid h) x = norm2 realFns (fun a => max (|x a| - h a) 0) + min (maxv fun a => |x a| - h a) 0 := by
  refine signedDist_eq (fun hx => ?_) (fun hx => ?_)
  · have hx : ∀ a, |x a| ≤ h a := hx
    have e1 : norm2 realFns (fun a => max (|x a| - h a) 0) = 0 := by
      have : ∀ a, max (|x a| - h a) 0 = 0 := fun a => max_eq_right (by linarith [hx a])
      simp [norm2, this]
    obtain ⟨i, hi⟩ := exists_maxv fun a => |x a| - h a
    have e2 : min (maxv fun a => |x a| - h a) 0 = |x i| - h i := by rw [hi]; exact min_eq_left (by linarith [hx i])
    rw [e1, e2, zero_add]
    constructor
    · intro y hy
      have hy : ¬ ∀ a, |y a| ≤ h a := hy
      push Not at hy
      obtain ⟨a, ha⟩ := hy
      have h1 := maxv_ge (fun a => |x a| - h a) a
      rw [hi] at h1
      have h2 := eDist_coord x y a
      have h3 := abs_sub_abs_le_abs_sub (y a) (x a)
      rw [abs_sub_comm] at h3
      linarith
    · intro ε hε
      refine ⟨Function.update x i (if 0 ≤ x i then h i + ε else -(h i + ε)), fun hy => ?_, ?_⟩
      · have := hy i
        rw [Function.update_self] at this
        have hh := h0 i
        split_ifs at this
        · rw [abs_of_nonneg (by linarith)] at this; linarith
        · rw [abs_neg, abs_of_nonneg (by linarith)] at this; linarith
      · have : eDist x (Function.update x i (if 0 ≤ x i then h i + ε else -(h i + ε))) =
            |x i - (if 0 ≤ x i then h i + ε else -(h i + ε))| := by
          rw [eDist, Finset.sum_eq_single i]
          · rw [Function.update_self, Real.sqrt_sq_eq_abs]
          · intro b _ hb
            rw [Function.update_of_ne hb]; ring
          · simp
        rw [this]
        have := hx i
        have hh := h0 i
        split_ifs with hc
        · rw [abs_of_nonneg hc] at this ⊢
          rw [abs_of_nonpos (by linarith)]; linarith
        · rw [abs_of_neg (not_le.mp hc)] at this ⊢
          rw [abs_of_nonneg (by linarith)]; linarith
  · have hx' : ¬ ∀ a, |x a| ≤ h a := hx
    push Not at hx'
    obtain ⟨i, hi⟩ := hx'
    have e2 : min (maxv fun a => |x a| - h a) 0 = 0 := by
      refine min_eq_right ?_
      have := maxv_ge (fun a => |x a| - h a) i
      linarith
    rw [e2, add_zero]
    constructor
    · intro y hy
      rw [norm2, eDist]
      refine Real.sqrt_le_sqrt (Finset.sum_le_sum fun a _ => ?_)
      have h1 : |x a| - h a ≤ |x a - y a| := by
        have := abs_sub_abs_le_abs_sub (x a) (y a)
        have := hy a
        linarith
      rw [← sq_abs (x a - y a)]
      exact pow_le_pow_left₀ (le_max_right _ _) (max_le h1 (abs_nonneg _)) 2
    · intro ε hε
      refine ⟨fun a => max (-h a) (min (x a) (h a)), fun a => ?_, ?_⟩
      · have := h0 a
        exact abs_le.mpr ⟨le_max_left _ _, max_le (by linarith) (min_le_right _ _)⟩
      · refine le_trans (le_of_eq ?_) (le_add_of_nonneg_right hε.le)
        rw [norm2, eDist]
        refine congrArg Real.sqrt (Finset.sum_congr rfl fun a _ => ?_)
        have := h0 a
        rcases le_or_gt (x a) (-h a) with c | c
        · rw [min_eq_left (by linarith), max_eq_left c, abs_of_nonpos (by linarith), max_eq_left (by linarith)]; ring
        · rcases le_or_gt (x a) (h a) with c' | c'
          · rw [min_eq_left c', max_eq_right c.le, max_eq_right (by linarith [abs_le.mpr ⟨c.le, c'⟩])]; ring
          · rw [min_eq_right c'.le, max_eq_right (by linarith), abs_of_pos (by linarith), max_eq_left (by linarith)]

theorem safeNorm_bias (v : Fin n → ℝ) : norm2 realFns v ≤ safeNorm realFns (1 / 10 ^ 12) v ∧
    safeNorm realFns (1 / 10 ^ 12) v ≤ norm2 realFns v + 1 / 10 ^ 6 := by
  have h0 : 0 ≤ ∑ a, v a ^ 2 := Finset.sum_nonneg fun _ _ => sq_nonneg _
  constructor
  · exact Real.sqrt_le_sqrt (by simp only [le_add_iff_nonneg_right]; positivity)
  · simp only [safeNorm, norm2, realFns_sqrt]
    rw [Real.sqrt_le_left (by positivity)]
    have h1 := Real.sq_sqrt h0
    have h2 := Real.sqrt_nonneg (∑ a, v a ^ 2)
    nlinarith

/-- **C46**: `BoxSDF` reports the signed distance of its box, too large by at most 1e-6. -/
theorem box_signed_distance (grad : ((Fin (n + 1) → ℝ) → ℝ) → (Fin (n + 1) → ℝ) → Fin (n + 1) → ℝ)
    (friction : (Fin (n + 1) → ℝ) → ℝ) {size : Fin (n + 1) → ℝ} (h0 : ∀ a, 0 ≤ size a) {s : SdfState ℝ (n + 1)}
    (hs : ProperPose (n + 1) s) (x : Fin (n + 1) → ℝ) :
    let true_ := signedDist (posed s (boxSolid fun a => size a / 2)) x
    let code := (baseSdf realFns grad (boxDist realFns (boxHalf size)) friction).dist s x
    true_ ≤ code ∧ code ≤ true_ + 1 / 10 ^ 6 := by
  intro true_ code
  have ht : true_ = _ := (signedDist_posed hs _ _).trans (signedDist_box (fun a => by have := h0 a; linarith) _)
  have hb := safeNorm_bias fun a => max (|toLocal realFns s x a| - size a / 2) 0
  rw [ht]
  change _ ≤ boxDist realFns (boxHalf size) (toLocal realFns s x) ∧ boxDist realFns (boxHalf size) (toLocal realFns s x) ≤ _
  simp only [boxDist, boxHalf]
  constructor <;> linarith [hb.1, hb.2]

/-! ### Capsule (C68) -/

/-- The point at height `t` on the axis. -/
def Spec.axisPoint (t : ℝ) : Fin (n + 2) → ℝ := fun a => if a = 1 then t else 0

/-- Points within `r` of the segment of half length `hh` on the second axis. -/
def Spec.capsule (r hh : ℝ) : Set (Fin (n + 2) → ℝ) := {y | ∃ t, |t| ≤ hh ∧ eDist y (axisPoint t) ≤ r}

theorem clipK_mem {lo hi : ℝ} (h : lo ≤ hi) (x : ℝ) : lo ≤ clipK lo hi x ∧ clipK lo hi x ≤ hi :=
  ⟨le_min (le_max_right _ _) h, min_le_right _ _⟩

theorem clipK_closest {lo hi t : ℝ} (h1 : lo ≤ t) (h2 : t ≤ hi) (x : ℝ) : (x - clipK lo hi x) ^ 2 ≤ (x - t) ^ 2 := by
  unfold clipK
  rcases le_or_gt x lo with c | c
  · rw [max_eq_right c, min_eq_left (h1.trans h2)]; nlinarith
  · rw [max_eq_left c.le]
    rcases le_or_gt x hi with c' | c'
    · rw [min_eq_left c']; nlinarith [sq_nonneg (x - t)]
    · rw [min_eq_right c'.le]; nlinarith

theorem clipK_ray {lo hi : ℝ} (h : lo ≤ hi) (x : ℝ) {k : ℝ} (hk : 0 ≤ k) :
    clipK lo hi (clipK lo hi x + k * (x - clipK lo hi x)) = clipK lo hi x := by
  unfold clipK
  rcases le_or_gt x lo with c | c
  · rw [max_eq_right c, min_eq_left h, max_eq_right (by nlinarith), min_eq_left h]
  · rw [max_eq_left c.le]
    rcases le_or_gt x hi with c' | c'
    · rw [min_eq_left c', sub_self, mul_zero, add_zero, max_eq_left c.le, min_eq_left c']
    · rw [min_eq_right c'.le, max_eq_left (by nlinarith), min_eq_right (by nlinarith)]

theorem axis_closest {hh t : ℝ} (ht : |t| ≤ hh) (x : Fin (n + 2) → ℝ) :
    eDist x (axisPoint (clipK (-hh) hh (x 1))) ≤ eDist x (axisPoint t) := by
  refine Real.sqrt_le_sqrt (Finset.sum_le_sum fun a _ => ?_)
  unfold axisPoint
  split_ifs with h
  · subst h
    exact clipK_closest (abs_le.mp ht).1 (abs_le.mp ht).2 _
  · exact le_rfl

theorem signedDist_capsule {r hh : ℝ} (hr : 0 ≤ r) (hhh : 0 ≤ hh) (x : Fin (n + 2) → ℝ) :
    signedDist (capsule r hh) x = eDist x (axisPoint (clipK (-hh) hh (x 1))) - r := by
  have hmem : ∀ y : Fin (n + 2) → ℝ, y ∈ capsule r hh ↔ eDist y (axisPoint (clipK (-hh) hh (y 1))) ≤ r := by
    intro y
    constructor
    · rintro ⟨t, ht, h⟩
      exact (axis_closest ht y).trans h
    · intro h
      exact ⟨_, abs_le.mpr (clipK_mem (by linarith) _), h⟩
  have hlip : ∀ x y : Fin (n + 2) → ℝ, eDist x (axisPoint (clipK (-hh) hh (x 1))) ≤
      eDist x y + eDist y (axisPoint (clipK (-hh) hh (y 1))) := fun x y =>
    (axis_closest (abs_le.mpr (clipK_mem (by linarith) (y 1))) x).trans (eDist_triangle _ _ _)
  have hmove : ∀ t, 0 ≤ eDist x (axisPoint (clipK (-hh) hh (x 1))) + t → ∃ y : Fin (n + 2) → ℝ, eDist x y = |t| ∧
      eDist y (axisPoint (clipK (-hh) hh (y 1))) = eDist x (axisPoint (clipK (-hh) hh (x 1))) + t := by
    intro t ht
    obtain ⟨y, h1, h2, k, hk, h3⟩ := radial_move x (axisPoint (clipK (-hh) hh (x 1))) ht
    have h4 := h3 1 (by simp)
    simp only [axisPoint, if_true] at h4
    refine ⟨y, h1, ?_⟩
    rw [h4, clipK_ray (by linarith) _ hk]
    exact h2
  set D := eDist x (axisPoint (clipK (-hh) hh (x 1))) with hD
  refine signedDist_eq (fun hx => ⟨fun y hy => ?_, fun ε hε => ?_⟩) (fun hx => ⟨fun y hy => ?_, fun ε hε => ?_⟩)
  · rw [hmem] at hy
    have := hlip y x
    rw [eDist_comm y x] at this
    linarith [not_le.mp hy]
  · rw [hmem] at hx
    obtain ⟨y, h1, h2⟩ := hmove (r - D + ε) (by linarith)
    refine ⟨y, fun hy => ?_, ?_⟩
    · rw [hmem] at hy; linarith
    · rw [h1, abs_of_nonneg (by linarith)]; linarith
  · rw [hmem] at hy
    have := hlip x y
    linarith
  · rw [hmem, not_le] at hx
    obtain ⟨y, h1, h2⟩ := hmove (r - D) (by linarith)
    refine ⟨y, (hmem y).mpr (by linarith), ?_⟩
    rw [h1, abs_of_nonpos (by linarith)]; linarith

/-- **C68**: `CapsuleSDF` reports the signed distance of the capsule, too large by at most 1e-6. -/
theorem capsule_signed_distance (grad : ((Fin (n + 2) → ℝ) → ℝ) → (Fin (n + 2) → ℝ) → Fin (n + 2) → ℝ)
    (friction : (Fin (n + 2) → ℝ) → ℝ) {r height : ℝ} (hr : 0 ≤ r) (hh0 : 0 ≤ height) {s : SdfState ℝ (n + 2)}
    (hs : ProperPose (n + 2) s) (x : Fin (n + 2) → ℝ) :
    let true_ := signedDist (posed s (capsule r (height / 2))) x
    let code := (baseSdf realFns grad (capsuleDist realFns r (halfHeight height)) friction).dist s x
    true_ ≤ code ∧ code ≤ true_ + 1 / 10 ^ 6 := by
  intro true_ code
  have hhh : 0 ≤ height / 2 := by linarith
  set hh := height / 2 with hhdef
  have ht : true_ = _ := (signedDist_posed hs _ _).trans (signedDist_capsule hr hhh _)
  set X := toLocal realFns s x
  have hc : code = safeNorm realFns (1 / 10 ^ 12) (Function.update X 1 (X 1 - clipK (-hh) hh (X 1))) - r := rfl
  have e : eDist X (axisPoint (clipK (-hh) hh (X 1))) = norm2 realFns (Function.update X 1 (X 1 - clipK (-hh) hh (X 1))) := by
    rw [eDist, norm2]
    refine congrArg Real.sqrt (Finset.sum_congr rfl fun a _ => ?_)
    unfold axisPoint
    split_ifs with h
    · subst h; rw [Function.update_self]
    · rw [Function.update_of_ne h, sub_zero]
  have hb := safeNorm_bias (Function.update X 1 (X 1 - clipK (-hh) hh (X 1)))
  rw [ht, hc, e]
  constructor <;> linarith [hb.1, hb.2]

/-! ### Solids of revolution (C68) -/

/-- Distance from the second axis. -/
noncomputable def Spec.axisDist (x : Fin 3 → ℝ) : ℝ := Real.sqrt (x 0 ^ 2 + x 2 ^ 2)

/-- The solid swept by turning the planar region `Q` about the second axis. -/
def Spec.revolved (Q : Set (Fin 2 → ℝ)) : Set (Fin 3 → ℝ) := {y | ![axisDist y, y 1] ∈ Q}

theorem eDist_three (x y : Fin 3 → ℝ) : eDist x y = Real.sqrt (eDist ![x 0, x 2] ![y 0, y 2] ^ 2 + (x 1 - y 1) ^ 2) := by
  simp only [eDist, Fin.sum_univ_three, Fin.sum_univ_two]
  rw [Real.sq_sqrt (by positivity)]
  simp
  ring_nf

theorem axisDist_eDist (x : Fin 3 → ℝ) : axisDist x = eDist ![x 0, x 2] fun _ => 0 := by
  simp [axisDist, eDist, Fin.sum_univ_two]

theorem eDist_two (p q : Fin 2 → ℝ) : eDist p q = Real.sqrt ((p 0 - q 0) ^ 2 + (p 1 - q 1) ^ 2) := by
  simp [eDist, Fin.sum_univ_two]

theorem revolved_shrinks (x y : Fin 3 → ℝ) : eDist ![axisDist x, x 1] ![axisDist y, y 1] ≤ eDist x y := by
  rw [eDist_three, eDist_two]
  refine Real.sqrt_le_sqrt (add_le_add ?_ le_rfl)
  simp only [Matrix.cons_val_zero]
  have h1 := eDist_triangle ![x 0, x 2] ![y 0, y 2] fun _ => 0
  have h2 := eDist_triangle ![y 0, y 2] ![x 0, x 2] fun _ => 0
  rw [eDist_comm ![y 0, y 2] ![x 0, x 2]] at h2
  rw [← axisDist_eDist, ← axisDist_eDist] at h1 h2
  exact sq_le_sq' (by linarith) (by linarith)

theorem revolved_lift (x : Fin 3 → ℝ) {q : Fin 2 → ℝ} (hq : 0 ≤ q 0) :
    ∃ y : Fin 3 → ℝ, ![axisDist y, y 1] = q ∧ eDist x y = eDist ![axisDist x, x 1] q := by
  obtain ⟨p, h1, h2, -⟩ := radial_move ![x 0, x 2] (fun _ => 0) (t := q 0 - axisDist x) (by rw [← axisDist_eDist]; linarith)
  refine ⟨![p 0, q 1, p 1], ?_, ?_⟩
  · have : axisDist ![p 0, q 1, p 1] = q 0 := by
      rw [axisDist_eDist]
      simp only [Matrix.cons_val_zero, Matrix.cons_val]
      have e : (![p 0, p 1] : Fin 2 → ℝ) = p := by funext a; fin_cases a <;> rfl
      rw [e, h2, ← axisDist_eDist]; ring
    rw [this]
    funext a; fin_cases a <;> rfl
  · have e : (![p 0, p 1] : Fin 2 → ℝ) = p := by funext a; fin_cases a <;> rfl
    have e3 := eDist_three x ![p 0, q 1, p 1]
    simp only [Matrix.cons_val_zero, Matrix.cons_val, Matrix.cons_val_one] at e3
    rw [e, h1, sq_abs] at e3
    rw [e3, eDist_two ![axisDist x, x 1]]
    simp only [Matrix.cons_val_zero, Matrix.cons_val_one]
    ring_nf

/-- Signed distance of a solid of revolution, for a region symmetric about the axis. -/
theorem signedDist_revolved {Q : Set (Fin 2 → ℝ)} (hQ : ∀ q, q ∈ Q ↔ ![|q 0|, q 1] ∈ Q) (x : Fin 3 → ℝ) :
    signedDist (revolved Q) x = signedDist Q ![axisDist x, x 1] := by
  have h0 : 0 ≤ axisDist x := Real.sqrt_nonneg _
  have key : ∀ Q : Set (Fin 2 → ℝ), (∀ q, q ∈ Q ↔ ![|q 0|, q 1] ∈ Q) →
      distTo (revolved Q) x = distTo Q ![axisDist x, x 1] := by
    intro Q hQ
    have hfold : ∀ q : Fin 2 → ℝ, eDist ![axisDist x, x 1] ![|q 0|, q 1] ≤ eDist ![axisDist x, x 1] q := by
      intro q
      rw [eDist_two, eDist_two]
      refine Real.sqrt_le_sqrt (add_le_add ?_ ?_)
      · simp only [Matrix.cons_val_zero]
        have := sq_abs (q 0)
        have := le_abs_self (q 0)
        nlinarith
      · simp
    by_cases hne : Q.Nonempty
    · obtain ⟨q0, hq0⟩ := hne
      have hlift : ∀ q ∈ Q, ∃ y ∈ revolved Q, eDist x y ≤ eDist ![axisDist x, x 1] q := by
        intro q hq
        obtain ⟨y, h1, h2⟩ := revolved_lift x (q := ![|q 0|, q 1]) (abs_nonneg _)
        refine ⟨y, ?_, h2 ▸ hfold q⟩
        change ![axisDist y, y 1] ∈ Q
        rw [h1]
        exact (hQ q).mp hq
      obtain ⟨y0, hy0, -⟩ := hlift q0 hq0
      apply le_antisymm
      · refine le_csInf ⟨_, q0, hq0, rfl⟩ ?_
        rintro _ ⟨q, hq, rfl⟩
        obtain ⟨y, hy, h⟩ := hlift q hq
        exact (csInf_le (bddBelow_dists _ _) ⟨y, hy, rfl⟩).trans h
      · refine le_csInf ⟨_, y0, hy0, rfl⟩ ?_
        rintro _ ⟨y, hy, rfl⟩
        exact (csInf_le (bddBelow_dists Q ![axisDist x, x 1]) ⟨![axisDist y, y 1], hy, rfl⟩).trans (revolved_shrinks x y)
    · rw [Set.not_nonempty_iff_eq_empty] at hne
      subst hne
      simp [distTo, revolved]
  unfold signedDist
  rw [key Q hQ, ← key Qᶜ fun q => not_congr (hQ q)]
  rfl

theorem combine2_mono {a a' b δ : ℝ} (h : a ≤ a') (h' : a' ≤ a + δ) :
    let c := fun a : ℝ => norm2 realFns ![max a 0, max b 0] + min (max a b) 0
    c a ≤ c a' ∧ c a' ≤ c a + δ := by
  intro c
  have hδ : 0 ≤ δ := by linarith
  have hn : ∀ u w : ℝ, norm2 realFns ![u, w] = Real.sqrt (u ^ 2 + w ^ 2) := fun u w => by simp [norm2, Fin.sum_univ_two]
  have hm : max a 0 ≤ max a' 0 := max_le_max h le_rfl
  have hm' : max a' 0 ≤ max a 0 + δ := max_le (by linarith [le_max_left a 0]) (by linarith [le_max_right a 0])
  have hp := le_max_right a 0
  constructor
  · refine add_le_add ?_ (min_le_min (max_le_max h le_rfl) le_rfl)
    rw [hn, hn]
    exact Real.sqrt_le_sqrt (add_le_add (pow_le_pow_left₀ hp hm 2) le_rfl)
  · rcases le_or_gt 0 (max a b) with hc | hc
    · have e1 : min (max a b) 0 = 0 := min_eq_right hc
      have e2 : min (max a' b) 0 ≤ 0 := min_le_right _ _
      have e3 : norm2 realFns ![max a' 0, max b 0] ≤ norm2 realFns ![max a 0, max b 0] + δ := by
        rw [hn, hn, Real.sqrt_le_left (by positivity)]
        have s1 := Real.sq_sqrt (by positivity : 0 ≤ max a 0 ^ 2 + max b 0 ^ 2)
        have s2 : max a 0 ≤ Real.sqrt (max a 0 ^ 2 + max b 0 ^ 2) := by
          refine Real.le_sqrt_of_sq_le ?_
          nlinarith [sq_nonneg (max b 0)]
        nlinarith
      simp only [c]
      linarith
    · have ha : a < 0 := (le_max_left _ _).trans_lt hc
      have hb : b < 0 := (le_max_right _ _).trans_lt hc
      have e1 : c a = max a b := by
        simp only [c, hn]
        rw [max_eq_right ha.le, max_eq_right hb.le, min_eq_left hc.le]; simp
      rw [e1]
      rcases le_or_gt a' 0 with h0 | h0
      · have : c a' = max a' b := by
          simp only [c, hn]
          rw [max_eq_right h0, max_eq_right hb.le, min_eq_left (max_le h0 hb.le)]; simp
        rw [this]
        exact max_le (by linarith [le_max_left a b]) (by linarith [le_max_right a b])
      · have : c a' = a' := by
          simp only [c, hn]
          rw [max_eq_left h0.le, max_eq_right hb.le, max_eq_left (hb.le.trans h0.le), min_eq_right h0.le]
          simp [Real.sqrt_sq h0.le]
        rw [this]
        linarith [le_max_left a b]

theorem maxv_two (u w : ℝ) : maxv (m := 1) (fun a => (![u, w] : Fin 2 → ℝ) a) = max u w := by
  apply le_antisymm
  · obtain ⟨i, hi⟩ := exists_maxv (m := 1) (fun a => (![u, w] : Fin 2 → ℝ) a)
    rw [hi]
    fin_cases i
    · exact le_max_left _ _
    · exact le_max_right _ _
  · exact max_le (maxv_ge (m := 1) (fun a => (![u, w] : Fin 2 → ℝ) a) 0) (maxv_ge (m := 1) (fun a => (![u, w] : Fin 2 → ℝ) a) 1)

/-- Radius at most `r`, height between `-hh` and `hh`. -/
def Spec.cylinder (r hh : ℝ) : Set (Fin 3 → ℝ) := {y | axisDist y ≤ r ∧ |y 1| ≤ hh}

theorem cylinder_revolved (r hh : ℝ) : cylinder r hh = revolved (boxSolid ![r, hh]) := by
  ext y
  have : 0 ≤ axisDist y := Real.sqrt_nonneg _
  simp [cylinder, revolved, boxSolid, Fin.forall_fin_two, abs_of_nonneg this]

theorem signedDist_cylinder {r hh : ℝ} (hr : 0 ≤ r) (hhh : 0 ≤ hh) (x : Fin 3 → ℝ) :
    signedDist (cylinder r hh) x =
      norm2 realFns ![max (axisDist x - r) 0, max (|x 1| - hh) 0] + min (max (axisDist x - r) (|x 1| - hh)) 0 := by
  have hx : 0 ≤ axisDist x := Real.sqrt_nonneg _
  rw [cylinder_revolved, signedDist_revolved, signedDist_box]
  · have e : (fun a : Fin 2 => |(![axisDist x, x 1] : Fin 2 → ℝ) a| - (![r, hh] : Fin 2 → ℝ) a) =
        ![axisDist x - r, |x 1| - hh] := by
      funext a; fin_cases a
      · simp [abs_of_nonneg hx]
      · simp
    have e2 : (fun a : Fin 2 => max (|(![axisDist x, x 1] : Fin 2 → ℝ) a| - (![r, hh] : Fin 2 → ℝ) a) 0) =
        ![max (axisDist x - r) 0, max (|x 1| - hh) 0] := by
      funext a; fin_cases a
      · simp [abs_of_nonneg hx]
      · simp
    rw [e, e2]
    rw [← maxv_two (axisDist x - r) (|x 1| - hh)]
  · intro a; fin_cases a <;> simpa
  · intro q
    simp [boxSolid, Fin.forall_fin_two]

/-- **C68**: `CylinderSDF` reports the signed distance of the cylinder, too large by at most 2e-6. -/
theorem cylinder_signed_distance (grad : ((Fin 3 → ℝ) → ℝ) → (Fin 3 → ℝ) → Fin 3 → ℝ)
    (friction : (Fin 3 → ℝ) → ℝ) {r height : ℝ} (hr : 0 ≤ r) (hh0 : 0 ≤ height) {s : SdfState ℝ 3}
    (hs : UnitQuat s.quat) (x : Fin 3 → ℝ) :
    let true_ := signedDist (posed s (cylinder r (height / 2))) x
    let code := (baseSdf realFns grad (cylinderDist realFns r (halfHeight height)) friction).dist s x
    true_ ≤ code ∧ code ≤ true_ + 2 / 10 ^ 6 := by
  intro true_ code
  have hhh : 0 ≤ height / 2 := by linarith
  set hh := height / 2 with hhdef
  have ht : true_ = _ := (signedDist_posed (n := 3) hs _ _).trans (signedDist_cylinder hr hhh _)
  set X := toLocal realFns s x
  have hc : code = combine2 realFns (safeNorm realFns (1 / 10 ^ 12) ![X 0, X 2] - r) (|X 1| - hh) := rfl
  have hr' : axisDist X = norm2 realFns ![X 0, X 2] := by simp [axisDist, norm2, Fin.sum_univ_two]
  have hb := safeNorm_bias ![X 0, X 2]
  rw [← hr'] at hb
  have hm := combine2_mono (a := axisDist X - r) (a' := safeNorm realFns (1 / 10 ^ 12) ![X 0, X 2] - r) (b := |X 1| - hh)
    (δ := 1 / 10 ^ 6) (by linarith [hb.1]) (by linarith [hb.2])
  have hb2 := safeNorm_bias ![max (safeNorm realFns (1 / 10 ^ 12) ![X 0, X 2] - r) 0, max (|X 1| - hh) 0]
  rw [ht, hc, combine2]
  constructor <;> linarith [hm.1, hm.2, hb2.1, hb2.2]

/-- Points within `r` of the circle of radius `R` about the second axis. -/
def Spec.torus (R r : ℝ) : Set (Fin 3 → ℝ) :=
  {y | ∃ c : Fin 3 → ℝ, axisDist c = R ∧ c 1 = 0 ∧ eDist y c ≤ r}

theorem torus_revolved {R : ℝ} (hR : 0 ≤ R) (r : ℝ) : torus R r = revolved {q | eDist ![|q 0|, q 1] ![R, 0] ≤ r} := by
  ext y
  have hy : |axisDist y| = axisDist y := abs_of_nonneg (Real.sqrt_nonneg _)
  simp only [torus, revolved, Set.mem_ofPred_eq, Matrix.cons_val_zero, Matrix.cons_val_one, hy]
  constructor
  · rintro ⟨c, h1, h2, h3⟩
    have := revolved_shrinks y c
    rw [h1, h2] at this
    exact this.trans h3
  · intro h
    obtain ⟨c, h1, h2⟩ := revolved_lift y (q := ![R, 0]) hR
    exact ⟨c, congrFun h1 0, congrFun h1 1, h2 ▸ h⟩

theorem signedDist_torus {R r : ℝ} (hr : 0 ≤ r) (hR : r < R) (x : Fin 3 → ℝ) :
    signedDist (torus R r) x = eDist ![axisDist x, x 1] ![R, 0] - r := by
  have h0 : 0 ≤ axisDist x := Real.sqrt_nonneg _
  have hR0 : 0 ≤ R := hr.trans hR.le
  rw [torus_revolved hR0, signedDist_revolved (by intro q; simp)]
  set w : Fin 2 → ℝ := ![axisDist x, x 1] with hw
  have hw0 : |w 0| = w 0 := abs_of_nonneg h0
  have hw' : ![|w 0|, w 1] = w := by rw [hw0]; funext a; fin_cases a <;> rfl
  have hfold : ∀ q : Fin 2 → ℝ, eDist w ![|q 0|, q 1] ≤ eDist w q := by
    intro q
    rw [eDist_two, eDist_two]
    refine Real.sqrt_le_sqrt (add_le_add ?_ ?_)
    · simp only [Matrix.cons_val_zero]
      have := sq_abs (q 0)
      have := le_abs_self (q 0)
      have : 0 ≤ w 0 := h0
      nlinarith
    · simp
  have hpos : ∀ q : Fin 2 → ℝ, eDist q ![R, 0] ≤ R → ![|q 0|, q 1] = q := by
    intro q hq
    have := eDist_coord q ![R, 0] 0
    have h2 := (abs_le.mp (this.trans hq)).1
    simp only [Matrix.cons_val_zero] at h2
    rw [abs_of_nonneg (by linarith)]
    funext a; fin_cases a <;> rfl
  refine signedDist_eq (fun hx => ⟨fun y hy => ?_, fun ε hε => ?_⟩) (fun hx => ⟨fun y hy => ?_, fun ε hε => ?_⟩)
  · have hy : r < eDist ![|y 0|, y 1] ![R, 0] := not_le.mp hy
    have := eDist_triangle ![|y 0|, y 1] w ![R, 0]
    rw [eDist_comm _ w] at this
    linarith [hfold y]
  · have hx : eDist ![|w 0|, w 1] ![R, 0] ≤ r := hx
    rw [hw'] at hx
    have hmin : 0 < min ε (R - r) := lt_min hε (by linarith)
    obtain ⟨y, h1, h2, -⟩ := radial_move w ![R, 0] (t := r - eDist w ![R, 0] + min ε (R - r)) (by linarith)
    refine ⟨y, fun hy => ?_, ?_⟩
    · have hy : eDist ![|y 0|, y 1] ![R, 0] ≤ r := hy
      rw [hpos y (by linarith [min_le_right ε (R - r)])] at hy
      linarith
    · rw [h1, abs_of_nonneg (by linarith)]; linarith [min_le_left ε (R - r)]
  · have hy : eDist ![|y 0|, y 1] ![R, 0] ≤ r := hy
    have := eDist_triangle w ![|y 0|, y 1] ![R, 0]
    linarith [hfold y]
  · have hx : r < eDist ![|w 0|, w 1] ![R, 0] := not_le.mp hx
    rw [hw'] at hx
    obtain ⟨y, h1, h2, -⟩ := radial_move w ![R, 0] (t := r - eDist w ![R, 0]) (by linarith)
    refine ⟨y, ?_, ?_⟩
    · change eDist ![|y 0|, y 1] ![R, 0] ≤ r
      rw [hpos y (by linarith)]; linarith
    · rw [h1, abs_of_nonpos (by linarith)]; linarith

/-- **C68**: `TorusSDF` reports the signed distance of the torus to within 1e-6. -/
theorem torus_signed_distance (grad : ((Fin 3 → ℝ) → ℝ) → (Fin 3 → ℝ) → Fin 3 → ℝ)
    (friction : (Fin 3 → ℝ) → ℝ) {R r : ℝ} (hr : 0 ≤ r) (hR : r < R) {s : SdfState ℝ 3}
    (hs : UnitQuat s.quat) (x : Fin 3 → ℝ) :
    |(baseSdf realFns grad (torusDist realFns R r) friction).dist s x - signedDist (posed s (torus R r)) x| ≤ 1 / 10 ^ 6 := by
  rw [signedDist_posed (n := 3) hs, signedDist_torus hr hR]
  set X := toLocal realFns s x
  have hr' : axisDist X = norm2 realFns ![X 0, X 2] := by simp [axisDist, norm2, Fin.sum_univ_two]
  have hb := safeNorm_bias ![X 0, X 2]
  rw [← hr'] at hb
  set ρ := safeNorm realFns (1 / 10 ^ 12) ![X 0, X 2]
  have hc : (baseSdf realFns grad (torusDist realFns R r) friction).dist s x = eDist ![ρ, X 1] ![R, 0] - r := by
    change norm2 realFns ![ρ - R, X 1] - r = _
    rw [eDist_two]
    simp [norm2, Fin.sum_univ_two]
  have hd : eDist ![ρ, X 1] ![axisDist X, X 1] ≤ 1 / 10 ^ 6 := by
    rw [eDist_two]
    simp only [Matrix.cons_val_zero, Matrix.cons_val_one, sub_self]
    rw [zero_pow two_ne_zero, add_zero, Real.sqrt_sq (by linarith [hb.1])]
    linarith [hb.2]
  have h1 := eDist_triangle ![ρ, X 1] ![axisDist X, X 1] ![R, 0]
  have h2 := eDist_triangle ![axisDist X, X 1] ![ρ, X 1] ![R, 0]
  rw [eDist_comm ![axisDist X, X 1] ![ρ, X 1]] at h2
  rw [hc, abs_le]
  constructor <;> linarith

/-- **C68** fails for `HollowCylinderSDF` in space: the height has no effect, and points of the wall arbitrarily far below
the cylinder are reported to be inside. -/
theorem hollow_cylinder_height_ignored (height height' rOut rIn : ℝ) (x : Fin 3 → ℝ) :
    hollow3Dist realFns height rOut rIn x = hollow3Dist realFns height' rOut rIn x ∧
    (rIn + 1 / 10 ^ 5 ≤ axisDist x → axisDist x ≤ rOut - 1 / 10 ^ 5 → x 1 ≤ -(1 / 10 ^ 5) →
      hollow3Dist realFns height rOut rIn x < 0) := by
  refine ⟨rfl, fun h1 h2 h3 => ?_⟩
  have hr' : norm2 realFns ![x 0, x 2] = axisDist x := by simp [axisDist, norm2, Fin.sum_univ_two]
  simp only [hollow3Dist, combine2, hr']
  have ha : max (axisDist x - rOut) (rIn - axisDist x) ≤ -(1 / 10 ^ 5) := max_le (by linarith) (by linarith)
  have hb := (safeNorm_bias ![max (max (axisDist x - rOut) (rIn - axisDist x)) 0, max (x 1) 0]).2
  rw [max_eq_right (by linarith : max (axisDist x - rOut) (rIn - axisDist x) ≤ 0),
    max_eq_right (by linarith : x 1 ≤ 0)] at hb ⊢
  have hz : norm2 realFns ![(0 : ℝ), 0] = 0 := by simp [norm2, Fin.sum_univ_two]
  have hm : min (max (max (axisDist x - rOut) (rIn - axisDist x)) (x 1)) 0 ≤ -(1 / 10 ^ 5) :=
    (min_le_left _ _).trans (max_le ha h3)
  rw [hz] at hb
  linarith

/-- A point 1000 below a hollow cylinder of height 2. -/
example : hollow3Dist realFns 2 2 1 ![3 / 2, -1000, 0] < 0 := by
  have h : axisDist ![3 / 2, -1000, 0] = 3 / 2 := by
    simp [axisDist, Real.sqrt_sq (by norm_num : (0 : ℝ) ≤ 3 / 2)]
  exact (hollow_cylinder_height_ignored 2 2 2 1 _).2 (by rw [h]; norm_num) (by rw [h]; norm_num) (by norm_num)

/-- The hypothesis on the pose for an unrotated obstacle. -/
example : ProperPose 3 (SdfState.create (![1, 2, 3] : Fin 3 → ℝ)) := by
  simp [ProperPose, SdfState.create, UnitQuat]

end
end Hydrax
