import Verif.Lemmas.ComputeApi
import Verif.Props.Helpers
import Mathlib.Logic.Equiv.Fintype

/-!
# Symmetries of the grid lattice: how they act on vectors, tensors, nodes and shape functions (helper lemmas)
-/

set_option linter.unusedSectionVars false

namespace Hydrax

open Spec

/-- A symmetry of the lattice followed by a translation: permute the axes (axis `d` becomes axis `perm d`), reverse the axes
marked by `flip`, then move the origin by `shift`. -/
structure Spec.LatSym (K : Type*) (dim : ℕ) where
  perm : Equiv.Perm (Fin dim)
  flip : Fin dim → Bool
  shift : Fin dim → K

section
variable {K : Type*} [Field K] {dim : ℕ}

/-- Sign given to axis `d`. -/
def Spec.LatSym.sg (T : LatSym K dim) (d : Fin dim) : K := if T.flip d then -1 else 1

/-- Image of a vector. -/
def Spec.LatSym.vec (T : LatSym K dim) (v : Fin dim → K) : Fin dim → K :=
  fun a => T.sg (T.perm.symm a) * v (T.perm.symm a)

/-- Image of a place. -/
def Spec.LatSym.point (T : LatSym K dim) (x : Fin dim → K) : Fin dim → K := fun a => T.vec x a + T.shift a

/-- The symmetry as a permutation of the three space axes. -/
def Spec.LatSym.p3 (T : LatSym K dim) (h : dim ≤ 3) : Equiv.Perm (Fin 3) :=
  T.perm.viaFintypeEmbedding (Fin.castLEEmb h)

/-- Sign given to a space axis. -/
def Spec.LatSym.s3 (T : LatSym K dim) (i : Fin 3) : K := if h : i.val < dim then T.sg ⟨i.val, h⟩ else 1

/-- The symmetry as an orthogonal matrix. -/
def Spec.LatSym.mat (T : LatSym K dim) (h : dim ≤ 3) : Matrix (Fin 3) (Fin 3) K :=
  fun i j => if i = T.p3 h j then T.s3 j else 0

/-- Image of a node number `k` on an axis of `n` nodes. -/
def Spec.LatSym.axis (T : LatSym K dim) (n : ℕ) (d : Fin dim) (k : ℕ) : ℕ := if T.flip d then n - 1 - k else k

/-- Image of a node of a grid of the given size. -/
def Spec.LatSym.node (T : LatSym K dim) (size k : Fin dim → ℕ) : Fin dim → ℕ :=
  fun a => T.axis (size (T.perm.symm a)) (T.perm.symm a) (k (T.perm.symm a))

/-- Image of a row of the nodal arrays. -/
def Spec.LatSym.row (T : LatSym K dim) (size : Fin dim → ℕ) (j : ℕ) : ℕ :=
  ravel dim (fun a => size (T.perm.symm a)) (T.node size (unravel dim size j))

/-- `g'` is the image of the grid `g`. -/
structure Spec.LatSym.Maps (T : LatSym K dim) (g g' : GridDomain K dim) : Prop where
  size : g'.gridSize = fun a => g.gridSize (T.perm.symm a)
  pos : ∀ d, 0 < g.gridSize d
  cell : g'.cellSize = g.cellSize
  inv : g'.invCellSize = g.invCellSize
  unit : g.cellSize * g.invCellSize = 1
  origin : ∀ d, g'.origin (T.perm d) = T.shift (T.perm d) +
    if T.flip d then -(g.origin d + ((g.gridSize d : K) - 1) * g.cellSize) else g.origin d

variable (T : LatSym K dim)

theorem LatSym.sg_sq (d : Fin dim) : T.sg d * T.sg d = 1 := by
  unfold Spec.LatSym.sg; split_ifs <;> ring

theorem LatSym.sg_cases (d : Fin dim) : T.sg d = 1 ∨ T.sg d = -1 := by
  unfold Spec.LatSym.sg; split_ifs <;> simp

theorem LatSym.vec_perm (v : Fin dim → K) (d : Fin dim) : T.vec v (T.perm d) = T.sg d * v d := by
  simp [Spec.LatSym.vec]

theorem LatSym.vec_ext {u v : Fin dim → K} (h : ∀ d, u (T.perm d) = v (T.perm d)) : u = v := by
  funext a; have := h (T.perm.symm a); simpa using this

theorem LatSym.vec_add (u v : Fin dim → K) (a : Fin dim) : T.vec (fun b => u b + v b) a = T.vec u a + T.vec v a := by
  simp only [Spec.LatSym.vec]; ring

theorem LatSym.vec_sub (u v : Fin dim → K) (a : Fin dim) : T.vec (fun b => u b - v b) a = T.vec u a - T.vec v a := by
  simp only [Spec.LatSym.vec]; ring

theorem LatSym.vec_smul (c : K) (v : Fin dim → K) (a : Fin dim) : T.vec (fun b => c * v b) a = c * T.vec v a := by
  simp only [Spec.LatSym.vec]; ring

theorem LatSym.vec_zero : T.vec (fun _ => 0) = fun _ => 0 := by
  funext a; simp [Spec.LatSym.vec]

theorem LatSym.vec_sum {ι : Type*} (s : Finset ι) (f : ι → Fin dim → K) (a : Fin dim) :
    T.vec (fun b => ∑ i ∈ s, f i b) a = ∑ i ∈ s, T.vec (f i) a := by
  simp only [Spec.LatSym.vec, Finset.mul_sum]

/-- Scalar products are kept. -/
theorem LatSym.vec_dot (u v : Fin dim → K) : ∑ a, T.vec u a * T.vec v a = ∑ a, u a * v a := by
  rw [← Equiv.sum_comp T.perm]
  refine Finset.sum_congr rfl fun d _ => ?_
  rw [LatSym.vec_perm, LatSym.vec_perm]
  linear_combination u d * v d * LatSym.sg_sq T d

theorem LatSym.point_sub (x y : Fin dim → K) (a : Fin dim) :
    T.point x a - T.point y a = T.vec (fun b => x b - y b) a := by
  simp only [Spec.LatSym.point, LatSym.vec_sub]; ring

theorem LatSym.p3_lt (h : dim ≤ 3) (i : Fin dim) : T.p3 h (Fin.castLE h i) = Fin.castLE h (T.perm i) := by
  have := Equiv.Perm.viaFintypeEmbedding_apply_image T.perm (Fin.castLEEmb h) i
  exact this

theorem LatSym.p3_ge (h : dim ≤ 3) (i : Fin 3) (hi : ¬ i.val < dim) : T.p3 h i = i := by
  apply Equiv.Perm.viaFintypeEmbedding_apply_notMem_range
  rintro ⟨j, hj⟩
  apply hi
  rw [← hj]; exact j.isLt

theorem LatSym.s3_lt (h : dim ≤ 3) (i : Fin dim) : T.s3 (Fin.castLE h i) = T.sg i := by
  simp [Spec.LatSym.s3]

theorem LatSym.s3_ge (i : Fin 3) (hi : ¬ i.val < dim) : T.s3 i = 1 := by simp [Spec.LatSym.s3, hi]

theorem LatSym.s3_sq (i : Fin 3) : T.s3 i * T.s3 i = 1 := by
  unfold Spec.LatSym.s3; split_ifs
  · exact LatSym.sg_sq T _
  · ring

theorem LatSym.mat_mulVec (h : dim ≤ 3) (u : Fin 3 → K) (i : Fin 3) :
    (T.mat h).mulVec u (T.p3 h i) = T.s3 i * u i := by
  simp only [Matrix.mulVec, dotProduct, Spec.LatSym.mat, (T.p3 h).apply_eq_iff_eq, ite_mul, zero_mul,
    Finset.sum_ite_eq, Finset.mem_univ, if_true]

theorem LatSym.ext3 (h : dim ≤ 3) {u v : Fin 3 → K} (e : ∀ i, u (T.p3 h i) = v (T.p3 h i)) : u = v := by
  funext a; have := e ((T.p3 h).symm a); simpa using this

theorem LatSym.ext33 (h : dim ≤ 3) {A B : Mat3 K} (e : ∀ i j, A (T.p3 h i) (T.p3 h j) = B (T.p3 h i) (T.p3 h j)) :
    A = B := by
  ext a b; have := e ((T.p3 h).symm a) ((T.p3 h).symm b); simpa using this

variable [LinearOrder K] [IsStrictOrderedRing K]

/-- The matrix of a symmetry is orthogonal. -/
theorem LatSym.mat_orth (h : dim ≤ 3) : Orthogonal3 (T.mat h) := by
  unfold Orthogonal3
  ext i j
  have e : (T.mat h).transpose * T.mat h = fun i j => (T.mat h).transpose.mulVec (fun k => T.mat h k j) i := rfl
  rw [e]
  simp only [Matrix.mulVec, dotProduct, Matrix.transpose_apply, Spec.LatSym.mat, ite_mul, zero_mul,
    Finset.sum_ite_eq', Finset.mem_univ, if_true, (T.p3 h).apply_eq_iff_eq, Matrix.one_apply]
  by_cases hij : i = j
  · subst hij; simp [LatSym.s3_sq]
  · simp [hij]

theorem LatSym.rot_apply (h : dim ≤ 3) (M : Mat3 K) (i j : Fin 3) :
    rotated (T.mat h) M (T.p3 h i) (T.p3 h j) = T.s3 i * T.s3 j * M i j := by
  have e1 : ∀ b, (T.mat h * M) (T.p3 h i) b = T.s3 i * M i b := fun b =>
    LatSym.mat_mulVec T h (fun k => M k b) i
  have e2 : rotated (T.mat h) M (T.p3 h i) (T.p3 h j) = (T.mat h).mulVec (fun k => (T.mat h * M) (T.p3 h i) k) (T.p3 h j) := by
    simp only [rotated]
    rw [Matrix.mul_apply, Matrix.mulVec, dotProduct]
    exact Finset.sum_congr rfl fun k _ => mul_comm _ _
  rw [e2, LatSym.mat_mulVec, e1]
  ring

theorem LatSym.pad3_vec (h : dim ≤ 3) (v : Fin dim → K) : pad3 (T.vec v) = (T.mat h).mulVec (pad3 v) := by
  apply LatSym.ext3 T h
  intro i
  rw [LatSym.mat_mulVec]
  by_cases hi : i.val < dim
  · have e : i = Fin.castLE h ⟨i.val, hi⟩ := rfl
    rw [e, LatSym.p3_lt, LatSym.s3_lt, pad3_lt _ (Fin.castLE h ⟨i.val, hi⟩) hi,
      pad3_lt _ (Fin.castLE h (T.perm ⟨i.val, hi⟩)) (T.perm ⟨i.val, hi⟩).isLt]
    exact LatSym.vec_perm T v ⟨i.val, hi⟩
  · rw [LatSym.p3_ge T h i hi, pad3_ge _ i hi, pad3_ge _ i hi, mul_zero]

theorem LatSym.trunc3_mat (h : dim ≤ 3) (u : Fin 3 → K) :
    trunc3 dim ((T.mat h).mulVec u) = T.vec (trunc3 dim u) := by
  apply LatSym.vec_ext T
  intro d
  have e : ∀ (w : Fin 3 → K) (a : Fin dim), trunc3 dim w a = w (Fin.castLE h a) := by
    intro w a
    have : a.val < 3 := lt_of_lt_of_le a.isLt h
    simp [trunc3, this, Fin.castLE]
  rw [LatSym.vec_perm, e, e, ← LatSym.p3_lt, LatSym.mat_mulVec, LatSym.s3_lt]

theorem LatSym.set22_rot (h : dim ≤ 3) (h2 : dim = 2) (M : Mat3 K) (c : K) :
    set22 (rotated (T.mat h) M) c = rotated (T.mat h) (set22 M c) := by
  apply LatSym.ext33 T h
  intro i j
  have f2 : T.p3 h 2 = 2 := LatSym.p3_ge T h 2 (by subst h2; decide)
  have s2 : T.s3 2 = 1 := LatSym.s3_ge T 2 (by subst h2; decide)
  have f : ∀ k, T.p3 h k = 2 ↔ k = 2 := fun k => by
    constructor
    · intro e; apply (T.p3 h).injective; rw [e, f2]
    · intro e; rw [e, f2]
  rw [LatSym.rot_apply]
  unfold set22
  simp only [f]
  by_cases hc : i = 2 ∧ j = 2
  · rw [if_pos hc, if_pos hc, hc.1, hc.2, s2]; ring
  · rw [if_neg hc, if_neg hc, LatSym.rot_apply]

end

/-! ### Rotations and tensor algebra -/

section
variable {K : Type*} [Field K] [LinearOrder K] [IsStrictOrderedRing K] {R : Mat3 K}

theorem rotated_add (A B : Mat3 K) : rotated R (A + B) = rotated R A + rotated R B := by
  simp only [rotated, mul_add, add_mul]

theorem rotated_sub (A B : Mat3 K) : rotated R (A - B) = rotated R A - rotated R B := by
  simp only [rotated, mul_sub, sub_mul]

theorem rotated_smul (c : K) (A : Mat3 K) : rotated R (c • A) = c • rotated R A := by
  simp only [rotated, mul_smul_comm, smul_mul_assoc]

theorem rotated_zero : rotated R (0 : Mat3 K) = 0 := by simp [rotated]

theorem rotated_one (h : Orthogonal3 R) : rotated R (1 : Mat3 K) = 1 := by
  rw [rotated, mul_one, orth_mul_transpose h]

theorem rotated_mul (h : Orthogonal3 R) (A B : Mat3 K) : rotated R (A * B) = rotated R A * rotated R B := by
  simp only [rotated]
  rw [show R * A * R.transpose * (R * B * R.transpose) = R * A * (R.transpose * R) * B * R.transpose by
    simp only [mul_assoc]]
  rw [h, mul_one, mul_assoc R A B]

theorem rotated_transpose (A : Mat3 K) : (rotated R A).transpose = rotated R A.transpose := by
  simp only [rotated, Matrix.transpose_mul, Matrix.transpose_transpose, mul_assoc]

theorem det_rotated (h : Orthogonal3 R) (A : Mat3 K) : (rotated R A).det = A.det := by
  have := congrArg Matrix.det (orth_mul_transpose h)
  rw [Matrix.det_mul, Matrix.det_one] at this
  rw [rotated, Matrix.det_mul, Matrix.det_mul]
  linear_combination A.det * this

theorem rotated_mulVec (h : Orthogonal3 R) (A : Mat3 K) (u : Fin 3 → K) :
    (rotated R A).mulVec (R.mulVec u) = R.mulVec (A.mulVec u) := by
  rw [rotated, Matrix.mulVec_mulVec, mul_assoc, h, mul_one, Matrix.mulVec_mulVec]

end

end Hydrax
