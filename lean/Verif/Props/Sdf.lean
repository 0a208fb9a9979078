import Verif.Model.Sdf
import Verif.Props.Helpers
import Verif.Props.Contact
import Mathlib.Algebra.BigOperators.Field
import Mathlib.Analysis.SpecialFunctions.Trigonometric.Deriv

/-!
# Obstacles: unions, domain walls, motion (C47-C50)
-/

set_option linter.unusedSectionVars false

namespace Hydrax

open Spec

section
variable {K : Type*} [Field K] [LinearOrder K] [IsStrictOrderedRing K] {dim : ℕ}

/-! ### C47: composite obstacles -/

theorem minv_le {m : ℕ} (f : Fin (m + 1) → K) (i : Fin (m + 1)) : minv f ≤ f i := Finset.inf'_le _ (Finset.mem_univ i)

theorem le_minv {m : ℕ} {f : Fin (m + 1) → K} {c : K} (h : ∀ i, c ≤ f i) : c ≤ minv f :=
  Finset.le_inf' _ _ fun i _ => h i

theorem exists_minv {m : ℕ} (f : Fin (m + 1) → K) : ∃ i, minv f = f i := by
  obtain ⟨i, -, h⟩ := Finset.exists_mem_eq_inf' (s := Finset.univ) ⟨0, Finset.mem_univ 0⟩ f
  exact ⟨i, h⟩

theorem argmin_le : (m : ℕ) → (f : Fin (m + 1) → K) → (i : Fin (m + 1)) → f (argmin m f) ≤ f i
  | 0, f, i => by rw [show i = argmin 0 f from Fin.ext (by omega)]
  | m + 1, f, i => by
    have ih := argmin_le m (fun i => f i.castSucc)
    unfold argmin
    simp only
    split_ifs with h
    · refine Fin.lastCases le_rfl (fun j => ?_) i
      exact h.le.trans (ih j)
    · refine Fin.lastCases (not_lt.mp h) (fun j => ?_) i
      exact ih j

theorem argmin_minv {m : ℕ} (f : Fin (m + 1) → K) : f (argmin m f) = minv f := by
  refine le_antisymm ?_ (minv_le f _)
  exact le_minv fun i => argmin_le m f i

/-- 1-Lipschitz with respect to a given length function. -/
def Spec.Lipschitz1 (len : (Fin dim → K) → K) (f : (Fin dim → K) → K) : Prop :=
  ∀ x y, |f x - f y| ≤ len fun a => x a - y a

theorem abs_minv_sub {m : ℕ} {f g : Fin (m + 1) → K} {c : K} (h : ∀ i, |f i - g i| ≤ c) : |minv f - minv g| ≤ c := by
  rw [abs_le]
  constructor
  · obtain ⟨i, hi⟩ := exists_minv f
    have h1 := (abs_le.mp (h i)).1
    have h2 := minv_le g i
    rw [hi]
    linarith
  · obtain ⟨i, hi⟩ := exists_minv g
    have h1 := (abs_le.mp (h i)).2
    have h2 := minv_le f i
    rw [hi]
    linarith

/-- A composite obstacle is the union of its parts: inside (at any level) iff inside one of them; its distance is that of
some part, does not depend on the order of the parts, is 1-Lipschitz if theirs are; and its friction is that of a closest
part. -/
theorem composite_union {m : ℕ} (parts : Fin (m + 1) → (Fin dim → K) → K) (frictions : Fin (m + 1) → K) :
    (∀ x c, compositeDist parts x < c ↔ ∃ i, parts i x < c) ∧
    (∀ x, ∃ i, compositeDist parts x = parts i x ∧ ∀ j, parts i x ≤ parts j x) ∧
    (∀ (e : Equiv.Perm (Fin (m + 1))) x, compositeDist (parts ∘ e) x = compositeDist parts x) ∧
    (∀ len, (∀ i, Lipschitz1 len (parts i)) → Lipschitz1 len (compositeDist parts)) ∧
    (∀ x, ∃ i, compositeFriction parts frictions x = frictions i ∧ ∀ j, parts i x ≤ parts j x) := by
  refine ⟨fun x c => ?_, fun x => ?_, fun e x => ?_, fun len h x y => ?_, fun x => ?_⟩
  · constructor
    · intro h
      obtain ⟨i, hi⟩ := exists_minv fun i => parts i x
      exact ⟨i, by rw [← hi]; exact h⟩
    · rintro ⟨i, hi⟩
      exact (minv_le _ i).trans_lt hi
  · obtain ⟨i, hi⟩ := exists_minv fun i => parts i x
    exact ⟨i, hi, fun j => hi ▸ minv_le (fun i => parts i x) j⟩
  · refine le_antisymm (le_minv fun i => ?_) (le_minv fun i => minv_le (fun i => parts i x) (e i))
    have := minv_le (fun i => (parts ∘ e) i x) (e.symm i)
    simp only [Function.comp, Equiv.apply_symm_apply] at this
    exact this
  · exact abs_minv_sub fun i => h i x y
  · exact ⟨argmin m fun i => parts i x, rfl, fun j => argmin_le m (fun i => parts i x) j⟩

/-- Two spheres of radius 1 around -2 and 2 on the line; a point in the second one. -/
example : compositeDist (![fun x => |x 0 + 2| - 1, fun x => |x 0 - 2| - 1] : Fin 2 → (Fin 1 → ℚ) → ℚ) ![5 / 2] = -1 / 2 ∧
    compositeFriction (![fun x => |x 0 + 2| - 1, fun x => |x 0 - 2| - 1] : Fin 2 → (Fin 1 → ℚ) → ℚ) ![3 / 10, 7 / 10] ![5 / 2]
      = 7 / 10 := by decide +kernel

/-! ### C50: domain walls -/

/-- Distance from `x` to the wall number `w` measured towards the inside: walls `0..dim-1` are the lower ones, the rest the
upper ones. -/
def Spec.wallDepth (lo hi x : Fin dim → K) (upper : Bool) (a : Fin dim) : K := if upper then hi a - x a else x a - lo a

theorem domainDists_castAdd (d : DomainParams K dim) (x : Fin dim → K) (a : Fin dim) :
    domainDists d x (Fin.castAdd dim a) = wallDepth d.lo d.hi x false a := by
  simp [domainDists, wallDepth]

theorem domainDists_natAdd (d : DomainParams K dim) (x : Fin dim → K) (a : Fin dim) :
    domainDists d x (Fin.natAdd dim a) = wallDepth d.lo d.hi x true a := by
  simp [domainDists, wallDepth]

theorem wall_cases {n : ℕ} (i : Fin (n + n)) : (∃ a : Fin n, i = Fin.castAdd n a) ∨ ∃ a : Fin n, i = Fin.natAdd n a :=
  Fin.addCases (motive := fun i => (∃ a : Fin n, i = Fin.castAdd n a) ∨ ∃ a : Fin n, i = Fin.natAdd n a)
    (fun a => Or.inl ⟨a, rfl⟩) (fun a => Or.inr ⟨a, rfl⟩) i

theorem domainDist_lt {m : ℕ} (d : DomainParams K (m + 1)) (x : Fin (m + 1) → K) (c : K) :
    c < domainDist d x ↔ ∀ a, d.lo a + c < x a ∧ x a < d.hi a - c := by
  constructor
  · intro h a
    have h1 := h.trans_le (minv_le (m := m + 1 + m) (domainDists d x) (Fin.castAdd (m + 1) a))
    have h2 := h.trans_le (minv_le (m := m + 1 + m) (domainDists d x) (Fin.natAdd (m + 1) a))
    rw [domainDists_castAdd] at h1
    rw [domainDists_natAdd] at h2
    simp only [wallDepth, if_true, Bool.false_eq_true, if_false] at h1 h2
    constructor <;> linarith
  · intro h
    obtain ⟨i, hi⟩ := exists_minv (m := m + 1 + m) (domainDists d x)
    rw [domainDist, hi]
    obtain ⟨a, rfl⟩ | ⟨a, rfl⟩ := wall_cases (n := m + 1) i
    · rw [domainDists_castAdd]
      have := (h a).1
      simp only [wallDepth, Bool.false_eq_true, if_false]
      linarith
    · rw [domainDists_natAdd]
      have := (h a).2
      simp only [wallDepth, if_true]
      linarith

/-- The domain obstacle: positive exactly strictly inside the bounds; 1-Lipschitz for every length that dominates the
components; at every point there is one closest wall such that the distance, the normal (unit axis vector to its inside)
and the friction are all that of this wall. -/
theorem domain_walls {m : ℕ} (d : DomainParams K (m + 1)) :
    (∀ x, 0 < domainDist d x ↔ ∀ a, d.lo a < x a ∧ x a < d.hi a) ∧
    (∀ len : (Fin (m + 1) → K) → K, (∀ v a, |v a| ≤ len v) → Lipschitz1 len (domainDist d)) ∧
    (∀ x, ∃ (upper : Bool) (a : Fin (m + 1)),
      domainDist d x = wallDepth d.lo d.hi x upper a ∧
      (∀ u b, wallDepth d.lo d.hi x upper a ≤ wallDepth d.lo d.hi x u b) ∧
      (∀ b, domainNormal d x b = if b = a then (if upper then -1 else 1) else 0) ∧
      domainFriction d x = d.frictions (if upper then Fin.natAdd (m + 1) a else Fin.castAdd (m + 1) a)) := by
  refine ⟨fun x => ?_, fun len hlen x y => ?_, fun x => ?_⟩
  · rw [domainDist_lt]; simp
  · refine abs_minv_sub fun i => ?_
    obtain ⟨a, rfl⟩ | ⟨a, rfl⟩ := wall_cases (n := m + 1) i
    · rw [domainDists_castAdd, domainDists_castAdd]
      simp only [wallDepth, Bool.false_eq_true, if_false]
      rw [show x a - d.lo a - (y a - d.lo a) = x a - y a by ring]
      exact hlen (fun a => x a - y a) a
    · rw [domainDists_natAdd, domainDists_natAdd]
      simp only [wallDepth, if_true]
      rw [show d.hi a - x a - (d.hi a - y a) = -(x a - y a) by ring, abs_neg]
      exact hlen (fun a => x a - y a) a
  · have hmin := argmin_le (m + 1 + m) (domainDists d x)
    have heq := argmin_minv (m := m + 1 + m) (domainDists d x)
    have hle : ∀ u b, domainDists d x (domainWall d x) ≤ wallDepth d.lo d.hi x u b := by
      intro u b
      cases u
      · rw [← domainDists_castAdd]; exact hmin _
      · rw [← domainDists_natAdd]; exact hmin _
    have hd : domainDist d x = domainDists d x (domainWall d x) := heq.symm
    have hf : domainFriction d x = d.frictions (domainWall d x) := rfl
    have hn : ∀ b, domainNormal d x b = (if b.val = (domainWall d x).val % (m + 1) then 1 else 0) *
      (if (domainWall d x).val < m + 1 then 1 else -1) := fun b => rfl
    obtain ⟨a, h⟩ | ⟨a, h⟩ := wall_cases (n := m + 1) (domainWall d x)
    · rw [h] at hle hd hf
      simp only [h, Fin.val_castAdd] at hn
      rw [domainDists_castAdd] at hd hle
      refine ⟨false, a, hd, hle, fun b => ?_, by simpa using hf⟩
      rw [hn b, Nat.mod_eq_of_lt a.isLt, if_pos a.isLt]
      simp [Fin.ext_iff]
    · rw [h] at hle hd hf
      simp only [h, Fin.val_natAdd] at hn
      rw [domainDists_natAdd] at hd hle
      refine ⟨true, a, hd, hle, fun b => ?_, by simpa using hf⟩
      rw [hn b, Nat.add_mod_left, Nat.mod_eq_of_lt a.isLt, if_neg (Nat.not_lt.mpr (Nat.le_add_right _ _))]
      by_cases e : b = a
      · simp [e]
      · simp [e, Fin.val_ne_of_ne e]

/-- The constructor: the offset is added to both bounds (a positive offset pushes the lower walls in and the upper walls
*out*), a scalar friction is used for all walls, a list must have one entry per wall. -/
theorem domain_create (origin stop : Fin dim → K) (fr : FrictionArg K) (offset : K) (d : DomainParams K dim)
    (h : DomainParams.create origin stop fr offset = .ok d) :
    (∀ a, d.lo a = origin a + offset ∧ d.hi a = stop a + offset) ∧
    (∀ f, fr = .scalar f → ∀ w, d.frictions w = f) ∧
    (∀ l, fr = .list l → l.length = dim + dim ∧ ∀ w : Fin (dim + dim), l[w.val]? = some (d.frictions w)) := by
  cases fr with
  | scalar f =>
    simp only [DomainParams.create, Except.ok.injEq] at h
    subst h
    refine ⟨fun a => ⟨rfl, rfl⟩, fun f' hf w => ?_, fun l hl => by simp at hl⟩
    simp only [FrictionArg.scalar.injEq] at hf
    exact hf
  | list l =>
    simp only [DomainParams.create] at h
    split_ifs at h with hl
    simp only [Except.ok.injEq] at h
    subst h
    refine ⟨fun a => ⟨rfl, rfl⟩, fun f hf => by simp at hf, fun l' hl' => ?_⟩
    simp only [FrictionArg.list.injEq] at hl'
    subst hl'
    refine ⟨hl, fun w => ?_⟩
    simp only [List.get_eq_getElem, Fin.val_cast]
    exact List.getElem?_eq_getElem _

/-- The unit square with walls of different friction; the point is closest to the right wall. -/
example : ∃ d, DomainParams.create (![0, 0] : Fin 2 → ℚ) ![1, 1] (.list [1 / 10, 2 / 10, 3 / 10, 4 / 10]) 0 = .ok d ∧
    domainDist d ![9 / 10, 1 / 2] = 1 / 10 ∧ domainNormal d ![9 / 10, 1 / 2] = ![-1, 0] ∧
    domainFriction d ![9 / 10, 1 / 2] = 3 / 10 :=
  ⟨_, rfl, by decide +kernel, by decide +kernel, by decide +kernel⟩

end

/-- The sliding contact of a node outside the domain leaves no velocity away from the domain, whatever the friction. -/
theorem domain_contact {m : ℕ} (d : DomainParams ℝ (m + 1)) (s : SdfState ℝ (m + 1)) (x v : Fin (m + 1) → ℝ)
    (gap base dt : ℝ) (hx : ∃ a, x a ≤ d.lo a ∨ d.hi a ≤ x a) :
    ∃ (upper : Bool) (a : Fin (m + 1)),
      (∀ u b, wallDepth d.lo d.hi x upper a ≤ wallDepth d.lo d.hi x u b) ∧
      let v' := collideNode Real.sqrt gap ((domainSdf d).dist s x) v ((domainSdf d).normal s x)
        ((domainSdf d).velocity s x dt) (base * (domainSdf d).friction s x) dt
      let w := (domainSdf d).velocity s x dt
      if upper then v' a = min (v a) (w a) else v' a = max (v a) (w a) := by
  obtain ⟨h1, -, h3⟩ := domain_walls d
  obtain ⟨upper, a, hd, hmin, hn, -⟩ := h3 x
  refine ⟨upper, a, hmin, ?_⟩
  have hneg : domainDist d x ≤ 0 := by
    by_contra hc
    have hc := (h1 x).mp (not_le.mp hc)
    obtain ⟨a, ha | ha⟩ := hx
    · exact absurd (hc a).1 (not_lt.mpr ha)
    · exact absurd (hc a).2 (not_lt.mpr ha)
  have hdot : ∀ u : Fin (m + 1) → ℝ, Spec.dot u (domainNormal d x) = u a * (if upper then -1 else 1) := by
    intro u
    simp only [Spec.dot, hn, mul_ite, mul_zero, Finset.sum_ite_eq', Finset.mem_univ, if_true]
  have hunit : Spec.dot (domainNormal d x) (domainNormal d x) = 1 := by
    rw [hdot, hn, if_pos rfl]
    cases upper <;> simp
  have hc := (contact_no_penetration gap (domainDist d x) v (domainNormal d x) ((domainSdf d).velocity s x dt)
    (base * domainFriction d x) dt hunit hneg).1
  rw [hdot, hdot] at hc
  simp only [domainSdf] at hc ⊢
  cases upper
  · simp only [Bool.false_eq_true, if_false, mul_one] at hc ⊢
    rw [eq_add_of_sub_eq hc, max_add, sub_add_cancel, zero_add]
  · simp only [if_true, mul_neg, mul_one] at hc ⊢
    have := neg_eq_iff_eq_neg.mp hc
    rw [eq_add_of_sub_eq this, ← min_neg_neg, neg_neg, neg_zero, min_add, sub_add_cancel, zero_add]

/-- A node on the floor of the unit square. -/
example (s : SdfState ℝ 2) (v : Fin 2 → ℝ) := domain_contact (m := 1) ⟨![0, 0], ![1, 1], fun _ => 1 / 2⟩ s ![1 / 3, 0] v 0 1 (1 / 1000)
  ⟨1, Or.inl (by simp)⟩

/-! ### C48: rigid motion -/

/-- The planar obstacle turned by `φ` about the origin and then shifted by `t`. -/
noncomputable def Spec.movedState2 (φ : ℝ) (t : Fin 2 → ℝ) (s : SdfState ℝ 2) : SdfState ℝ 2 :=
  { s with com := fun a => rot2 realFns φ s.com a + t a, angle := s.angle + φ }

/-- The spatial obstacle turned by the unit quaternion `p` about the origin and then shifted by `t`. -/
def Spec.movedState3 {K : Type*} [Field K] (p : Fin 4 → K) (t : Fin 3 → K) (s : SdfState K 3) : SdfState K 3 :=
  { s with com := fun a => quatRotate p s.com a + t a, quat := qmul p s.quat }

theorem rot2_sub (φ : ℝ) (u v : Fin 2 → ℝ) (a : Fin 2) :
    rot2 realFns φ u a - rot2 realFns φ v a = rot2 realFns φ (fun b => u b - v b) a := by
  fin_cases a <;> simp [rot2] <;> ring

/-- The local coordinates of a point moving with a planar obstacle do not change. -/
theorem toLocal_moved2 (φ : ℝ) (t : Fin 2 → ℝ) (s : SdfState ℝ 2) (x : Fin 2 → ℝ) :
    toLocal realFns (movedState2 φ t s) (fun a => rot2 realFns φ x a + t a) = toLocal realFns s x := by
  have e : (fun a => rot2 realFns φ x a + t a - (rot2 realFns φ s.com a + t a)) =
      rot2 realFns φ fun b => x b - s.com b := by
    funext a
    rw [← rot2_sub]; ring
  simp only [toLocal, rotInv, movedState2]
  rw [e]
  obtain ⟨-, -, -, -, -, h6, -⟩ := rot2_rigid (s.angle + φ) 0 (rot2 realFns φ fun b => x b - s.com b) 0
  obtain ⟨-, -, -, -, h5, -, -⟩ := rot2_rigid (-(s.angle + φ)) φ (fun b => x b - s.com b) 0
  obtain ⟨-, -, -, -, -, h6', -⟩ := rot2_rigid s.angle 0 (fun b => x b - s.com b) 0
  rw [h6, h5, h6']
  congr 1
  ring

section
variable {K : Type*} [Field K] [LinearOrder K] [IsStrictOrderedRing K]

theorem quatRotate_sub (p : Fin 4 → K) (u v : Fin 3 → K) (a : Fin 3) :
    quatRotate p u a - quatRotate p v a = quatRotate p (fun b => u b - v b) a := by
  fin_cases a <;> simp [quatRotate, cross3, qVec] <;> ring

/-- The local coordinates of a point moving with a spatial obstacle do not change. -/
theorem toLocal_moved3 (fn : MathFns K) {p : Fin 4 → K} (hp : UnitQuat p) (t : Fin 3 → K) (s : SdfState K 3)
    (hs : UnitQuat s.quat) (x : Fin 3 → K) :
    toLocal fn (movedState3 p t s) (fun a => quatRotate p x a + t a) = toLocal fn s x := by
  have e : (fun a => quatRotate p x a + t a - (quatRotate p s.com a + t a)) = quatRotate p fun b => x b - s.com b := by
    funext a
    rw [← quatRotate_sub]; ring
  simp only [toLocal, rotInv, movedState3]
  rw [e]
  have hps := unitQuat_mul hp hs
  generalize (fun b => x b - s.com b) = v
  obtain ⟨w, rfl⟩ : ∃ w, v = quatRotate s.quat w := ⟨_, ((quatRotate_inv hs v).2.1).symm⟩
  rw [quatRotate_mul hp hs, (quatRotate_inv hps w).1, (quatRotate_inv hs w).1]

end

theorem norm2_sq {m : ℕ} (u v : Fin m → ℝ) (h : ∑ a, u a ^ 2 = ∑ a, v a ^ 2) : norm2 realFns u = norm2 realFns v := by
  rw [norm2, norm2, h]

/-- **C48**, plane: moving obstacle and point together changes neither distance nor friction, for every shape (`SphereSDF`,
which skips the rotation, included). -/
theorem rigid_motion2 (grad : ((Fin 2 → ℝ) → ℝ) → (Fin 2 → ℝ) → Fin 2 → ℝ) (φ : ℝ) (t : Fin 2 → ℝ) (s : SdfState ℝ 2)
    (x : Fin 2 → ℝ) :
    (∀ dist friction,
      (baseSdf realFns grad dist friction).dist (movedState2 φ t s) (fun a => rot2 realFns φ x a + t a) =
        (baseSdf realFns grad dist friction).dist s x ∧
      (baseSdf realFns grad dist friction).friction (movedState2 φ t s) (fun a => rot2 realFns φ x a + t a) =
        (baseSdf realFns grad dist friction).friction s x) ∧
    ∀ r, (sphereSdf realFns grad r).dist (movedState2 φ t s) (fun a => rot2 realFns φ x a + t a) =
      (sphereSdf realFns grad r).dist s x := by
  refine ⟨fun dist friction => ?_, fun r => ?_⟩
  · simp only [baseSdf, toLocal_moved2, and_self]
  · simp only [sphereSdf, sphereDist]
    congr 1
    refine norm2_sq _ _ ?_
    have e : (fun a => rot2 realFns φ x a + t a - (movedState2 φ t s).com a) = rot2 realFns φ fun b => x b - s.com b := by
      funext a
      simp only [movedState2]
      rw [← rot2_sub]; ring
    have h := (rot2_rigid φ 0 (fun b => x b - s.com b) fun b => x b - s.com b).1
    have := congrFun e
    simp only [this, Fin.sum_univ_two]
    rw [pow_two, pow_two, pow_two, pow_two]
    exact h

/-- **C48**, space: the same for unit quaternions. -/
theorem rigid_motion3 (grad : ((Fin 3 → ℝ) → ℝ) → (Fin 3 → ℝ) → Fin 3 → ℝ) {p : Fin 4 → ℝ} (hp : UnitQuat p)
    (t : Fin 3 → ℝ) (s : SdfState ℝ 3) (hs : UnitQuat s.quat) (x : Fin 3 → ℝ) :
    (∀ dist friction,
      (baseSdf realFns grad dist friction).dist (movedState3 p t s) (fun a => quatRotate p x a + t a) =
        (baseSdf realFns grad dist friction).dist s x ∧
      (baseSdf realFns grad dist friction).friction (movedState3 p t s) (fun a => quatRotate p x a + t a) =
        (baseSdf realFns grad dist friction).friction s x) ∧
    ∀ r, (sphereSdf realFns grad r).dist (movedState3 p t s) (fun a => quatRotate p x a + t a) =
      (sphereSdf realFns grad r).dist s x := by
  refine ⟨fun dist friction => ?_, fun r => ?_⟩
  · simp only [baseSdf, toLocal_moved3 realFns hp t s hs, and_self]
  · simp only [sphereSdf, sphereDist]
    congr 1
    refine norm2_sq _ _ ?_
    have e : (fun a => quatRotate p x a + t a - (movedState3 p t s).com a) = quatRotate p fun b => x b - s.com b := by
      funext a
      simp only [movedState3]
      rw [← quatRotate_sub]; ring
    have h := (quatRotate_rigid hp (fun b => x b - s.com b) fun b => x b - s.com b).1
    have := congrFun e
    simp only [this, Fin.sum_univ_three]
    simp only [inner3] at h
    simp only [pow_two]
    exact h

/-- A turn by 120 degrees of an obstacle in its initial pose. -/
example (grad) (t x : Fin 3 → ℝ) := rigid_motion3 grad (p := ![1 / 2, 1 / 2, -1 / 2, 1 / 2]) (by simp [UnitQuat]; norm_num) t
  (SdfState.create ![1, 2, 3]) (by simp [UnitQuat, SdfState.create]) x

/-- `n` kinematic updates. -/
def Spec.updates {K : Type*} [Field K] [LinearOrder K] {dim : ℕ} (fn : MathFns K) (dt : K) (s : SdfState K dim) :
    ℕ → SdfState K dim
  | 0 => s
  | n + 1 => updateKin fn (updates fn dt s n) dt

section
variable {K : Type*} [Field K] [LinearOrder K] [IsStrictOrderedRing K] {dim : ℕ}

/-- **C48**, uniform motion: centre, planar angle and velocities after `n` updates. -/
theorem updates_value (fn : MathFns K) (dt : K) (s : SdfState K dim) (n : ℕ) :
    (∀ a, (updates fn dt s n).com a = s.com a + n * dt * s.velocity a) ∧
    (updates fn dt s n).velocity = s.velocity ∧ (updates fn dt s n).omega = s.omega ∧
    (updates fn dt s n).omega3 = s.omega3 ∧
    (dim = 2 → (updates fn dt s n).angle = s.angle + n * dt * s.omega) := by
  induction n with
  | zero => simp [updates]
  | succ n ih =>
    obtain ⟨h1, h2, h3, h4, h5⟩ := ih
    have hc : (updates fn dt s (n + 1)).com = fun a => (updates fn dt s n).com a + (updates fn dt s n).velocity a * dt := by
      simp only [updates, updateKin]; split_ifs <;> rfl
    have hv : (updates fn dt s (n + 1)).velocity = (updates fn dt s n).velocity := by
      simp only [updates, updateKin]; split_ifs <;> rfl
    have ho : (updates fn dt s (n + 1)).omega = (updates fn dt s n).omega := by
      simp only [updates, updateKin]; split_ifs <;> rfl
    have ho3 : (updates fn dt s (n + 1)).omega3 = (updates fn dt s n).omega3 := by
      simp only [updates, updateKin]; split_ifs <;> rfl
    refine ⟨fun a => ?_, hv.trans h2, ho.trans h3, ho3.trans h4, fun hd => ?_⟩
    · rw [hc]
      simp only [h1, h2]
      push_cast
      ring
    · have : (updates fn dt s (n + 1)).angle = (updates fn dt s n).angle + (updates fn dt s n).omega * dt := by
        simp only [updates, updateKin, if_pos hd]
      rw [this, h5 hd, h3]
      push_cast
      ring

/-- One quaternion update is a normalised Euler step of `q' = ½ ω q`. -/
theorem integrateQuat_euler (fn : MathFns K) (q : Fin 4 → K) (w : Fin 3 → K) (dt : K) :
    let qn := fun k => q k + dt / 2 * qmul ![0, w 0, w 1, w 2] q k
    integrateQuat fn q w dt = (fun k => qn k / (fn.sqrt (∑ j, qn j ^ 2) + 1 / 10 ^ 12)) ∧
    ∑ j, qn j ^ 2 = (∑ j, q j ^ 2) * (1 + dt ^ 2 * (∑ j, w j ^ 2) / 4) := by
  intro qn
  have e : (fun k => q k + 1 / 2 * dt * (![-w 0 * q 1 - w 1 * q 2 - w 2 * q 3, w 0 * q 0 + w 1 * q 3 - w 2 * q 2,
      -w 0 * q 3 + w 1 * q 0 + w 2 * q 1, w 0 * q 2 - w 1 * q 1 + w 2 * q 0] : Fin 4 → K) k) = qn := by
    have e2 : 1 / 2 * dt = dt / 2 := by ring
    rw [e2]
    apply fin4_ext <;> simp [qn, qmul]
  refine ⟨?_, ?_⟩
  · have h := fun k => congrFun e k
    simp only [integrateQuat, h]
  · simp only [Fin.sum_univ_four, Fin.sum_univ_three, qn]
    simp [qmul]
    ring

end

/-- **C48**, orientation: the norm of the quaternion stays in `[1 - 1e-12, 1]` forever, whatever the spin. -/
theorem quat_norm_bounded (dt : ℝ) (s : SdfState ℝ 3) (h0 : 1 - 1 / 10 ^ 12 ≤ norm2 realFns s.quat)
    (h1 : norm2 realFns s.quat ≤ 1) (n : ℕ) :
    1 - 1 / 10 ^ 12 ≤ norm2 realFns (updates realFns dt s n).quat ∧ norm2 realFns (updates realFns dt s n).quat ≤ 1 := by
  induction n with
  | zero => exact ⟨h0, h1⟩
  | succ n ih =>
    have hq : (updates realFns dt s (n + 1)).quat =
        integrateQuat realFns (updates realFns dt s n).quat (updates realFns dt s n).omega3 dt := rfl
    rw [hq]
    generalize (updates realFns dt s n).quat = q at *
    generalize (updates realFns dt s n).omega3 = w
    obtain ⟨he, hs⟩ := integrateQuat_euler realFns q w dt
    set qn : Fin 4 → ℝ := fun k => q k + dt / 2 * qmul ![0, w 0, w 1, w 2] q k
    have hN : norm2 realFns q ≤ Real.sqrt (∑ j, qn j ^ 2) := by
      rw [hs]
      refine Real.sqrt_le_sqrt ?_
      have a1 : 0 ≤ ∑ j, q j ^ 2 := Finset.sum_nonneg fun j _ => sq_nonneg _
      have a2 : 0 ≤ ∑ j, w j ^ 2 := Finset.sum_nonneg fun j _ => sq_nonneg _
      have a3 : 0 ≤ dt ^ 2 * (∑ j, w j ^ 2) / 4 := by positivity
      nlinarith
    rw [he]
    simp only [realFns_sqrt]
    set N := Real.sqrt (∑ j, qn j ^ 2) with hNdef
    have hN0 : 0 ≤ N := Real.sqrt_nonneg _
    have hv : norm2 realFns (fun k => qn k / (N + 1 / 10 ^ 12)) = N / (N + 1 / 10 ^ 12) := by
      rw [norm2, realFns_sqrt]
      simp only [div_pow]
      rw [← Finset.sum_div (s := Finset.univ), Real.sqrt_div' _ (sq_nonneg _), ← hNdef, Real.sqrt_sq (by positivity)]
    rw [hv]
    have hge : 1 - 1 / 10 ^ 12 ≤ N := ih.1.trans hN
    constructor
    · rw [le_div_iff₀ (by positivity)]
      nlinarith
    · rw [div_le_one (by positivity)]
      linarith [show (0 : ℝ) ≤ 1 / 10 ^ 12 by positivity]

/-! ### C49: the velocity of the surface -/

theorem toLocal_world2 {s : SdfState ℝ 2} {x X : Fin 2 → ℝ} (h : toLocal realFns s x = X) (a : Fin 2) :
    x a = s.com a + rot2 realFns s.angle X a := by
  subst h
  obtain ⟨-, -, -, h4, -⟩ := rot2_rigid s.angle 0 (fun b => x b - s.com b) 0
  have : toLocal realFns s x = rot2Inv realFns s.angle fun b => x b - s.com b := rfl
  rw [this, h4]; ring

/-- **C49**, plane: a point fixed to the obstacle (constant local coordinates) moves with the velocity that
`get_velocity` reports. -/
theorem surface_velocity2 (S : ℝ → SdfState ℝ 2) (x : ℝ → Fin 2 → ℝ) (X : Fin 2 → ℝ) (t : ℝ)
    (hfix : ∀ τ, toLocal realFns (S τ) (x τ) = X)
    (hcom : ∀ a, HasDerivAt (fun τ => (S τ).com a) ((S t).velocity a) t)
    (hang : HasDerivAt (fun τ => (S τ).angle) (S t).omega t) (a : Fin 2) :
    HasDerivAt (fun τ => x τ a) (sdfVelocity (S t) (x t) a) t := by
  have hx : ∀ a, (fun τ => x τ a) = fun τ => (S τ).com a + rot2 realFns (S τ).angle X a := by
    intro a; funext τ; exact toLocal_world2 (hfix τ) a
  have hr : ∀ a, x t a - (S t).com a = rot2 realFns (S t).angle X a := by
    intro a; rw [toLocal_world2 (hfix t) a]; ring
  rw [hx a]
  have hs := hang.sin
  have hc := hang.cos
  fin_cases a
  · have h := (hcom 0).add ((hc.mul_const (X 0)).sub (hs.mul_const (X 1)))
    refine h.congr_deriv ?_
    simp only [sdfVelocity, spinVel]
    simp [hr, rot2]
    ring
  · have h := (hcom 1).add ((hs.mul_const (X 0)).add (hc.mul_const (X 1)))
    refine h.congr_deriv ?_
    simp only [sdfVelocity, spinVel]
    simp [hr, rot2]
    ring

/-- **C49**, plane, for the motion the package gives the obstacle: over a short update `updateKin` of length `τ` a point
fixed to the obstacle starts off with the velocity that `get_velocity` reports. -/
theorem surface_velocity2_update (s : SdfState ℝ 2) (x : ℝ → Fin 2 → ℝ) (X : Fin 2 → ℝ)
    (hfix : ∀ τ, toLocal realFns (updateKin realFns s τ) (x τ) = X) (a : Fin 2) :
    HasDerivAt (fun τ => x τ a) (sdfVelocity s (x 0) a) 0 := by
  have e0 : updateKin realFns s 0 = s := by simp [updateKin]
  have hlin : ∀ c v : ℝ, HasDerivAt (fun τ : ℝ => c + v * τ) v 0 := fun c v => by
    simpa using ((hasDerivAt_id (0 : ℝ)).const_mul v).const_add c
  have h := surface_velocity2 (fun τ => updateKin realFns s τ) x X 0 hfix
    (fun b => by simpa [updateKin] using hlin (s.com b) (s.velocity b))
    (by simpa [updateKin] using hlin s.angle s.omega) a
  simpa only [e0] using h

/-- The hypotheses hold for every obstacle and every point of it. -/
example (s : SdfState ℝ 2) (X : Fin 2 → ℝ) (τ : ℝ) :
    toLocal realFns (updateKin realFns s τ) (fun a => (updateKin realFns s τ).com a +
      rot2 realFns (updateKin realFns s τ).angle X a) = X := by
  simp only [toLocal, add_sub_cancel_left]
  exact (rot2_rigid (updateKin realFns s τ).angle 0 X 0).2.2.1

theorem toLocal_world3 {s : SdfState ℝ 3} (hs : UnitQuat s.quat) {x X : Fin 3 → ℝ} (h : toLocal realFns s x = X)
    (a : Fin 3) : x a = s.com a + quatApply s.quat X a := by
  subst h
  have : toLocal realFns s x = quatRotate (quatInv s.quat) fun b => x b - s.com b := rfl
  rw [this, ← quatRotate_eq hs, (quatRotate_inv hs _).2.1]; ring

/-- **C49**, space: the same for an orientation that follows `q' = ½ ω q`, the equation of which `integrate_quaternion` takes
Euler steps (`integrateQuat_euler`). -/
theorem surface_velocity3 (S : ℝ → SdfState ℝ 3) (x : ℝ → Fin 3 → ℝ) (X : Fin 3 → ℝ) (t : ℝ)
    (hfix : ∀ τ, toLocal realFns (S τ) (x τ) = X) (hunit : ∀ τ, UnitQuat (S τ).quat)
    (hcom : ∀ a, HasDerivAt (fun τ => (S τ).com a) ((S t).velocity a) t)
    (hquat : ∀ k, HasDerivAt (fun τ => (S τ).quat k)
      (1 / 2 * qmul ![0, (S t).omega3 0, (S t).omega3 1, (S t).omega3 2] (S t).quat k) t) (a : Fin 3) :
    HasDerivAt (fun τ => x τ a) (sdfVelocity (S t) (x t) a) t := by
  have hx : ∀ a, (fun τ => x τ a) = fun τ => (S τ).com a + quatApply (S τ).quat X a := by
    intro a; funext τ; exact toLocal_world3 (hunit τ) (hfix τ) a
  have hr : ∀ a, x t a - (S t).com a = quatApply (S t).quat X a := by
    intro a; rw [toLocal_world3 (hunit t) (hfix t) a]; ring
  rw [hx a]
  have q0 := hquat 0
  have q1 := hquat 1
  have q2 := hquat 2
  have q3 := hquat 3
  have d2 := fun (b : Fin 4) => ((hquat b).pow 2)
  have dm := fun (b c : Fin 4) => ((hquat b).mul (hquat c))
  fin_cases a
  · have h := (hcom 0).add ((((((d2 0).add (d2 1)).sub (d2 2)).sub (d2 3)).mul_const (X 0)).add
      ((((dm 1 2).sub (dm 0 3)).const_mul 2).mul_const (X 1)) |>.add
      ((((dm 1 3).add (dm 0 2)).const_mul 2).mul_const (X 2)))
    refine (h.congr_of_eventuallyEq ?_).congr_deriv ?_
    · exact Filter.Eventually.of_forall fun τ => by simp [quatApply]
    simp only [sdfVelocity, spinVel, cross3]
    simp [hr, quatApply, qmul]
    ring
  · have h := (hcom 1).add (((((dm 1 2).add (dm 0 3)).const_mul 2).mul_const (X 0)).add
      (((((d2 0).sub (d2 1)).add (d2 2)).sub (d2 3)).mul_const (X 1)) |>.add
      ((((dm 2 3).sub (dm 0 1)).const_mul 2).mul_const (X 2)))
    refine (h.congr_of_eventuallyEq ?_).congr_deriv ?_
    · exact Filter.Eventually.of_forall fun τ => by simp [quatApply]
    simp only [sdfVelocity, spinVel, cross3]
    simp [hr, quatApply, qmul]
    ring
  · have h := (hcom 2).add (((((dm 1 3).sub (dm 0 2)).const_mul 2).mul_const (X 0)).add
      ((((dm 2 3).add (dm 0 1)).const_mul 2).mul_const (X 1)) |>.add
      (((((d2 0).sub (d2 1)).sub (d2 2)).add (d2 3)).mul_const (X 2)))
    refine (h.congr_of_eventuallyEq ?_).congr_deriv ?_
    · exact Filter.Eventually.of_forall fun τ => by simp [quatApply]
    simp only [sdfVelocity, spinVel, cross3]
    simp [hr, quatApply, qmul]
    ring

/-- A disc rolling to the right: `com = (t, 0)`, `angle = -t`; the point at local `(0, -1)` is instantaneously at rest at
`t = 0`, as `get_velocity` says. -/
example : HasDerivAt (fun τ : ℝ => τ + rot2 realFns (-τ) ![0, -1] 0) 0 0 := by
  have h := surface_velocity2 (fun τ => SdfState.create ![τ, 0] (some ![1, 0]) (some (-1)) none (some (-τ)) none)
    (fun τ a => (![τ, 0] : Fin 2 → ℝ) a + rot2 realFns (-τ) ![0, -1] a) ![0, -1] 0
    (fun τ => by
      have h := (rot2_rigid (-τ) 0 ![0, -1] 0).2.2.1
      have e : (fun a => (![τ, 0] : Fin 2 → ℝ) a + rot2 realFns (-τ) ![0, -1] a - (![τ, 0] : Fin 2 → ℝ) a) =
        rot2 realFns (-τ) ![0, -1] := by funext a; ring
      simp only [toLocal, rotInv, SdfState.create, Option.getD_some]
      rw [e, h])
    (fun a => by fin_cases a
                 · simpa [SdfState.create] using hasDerivAt_id' (0 : ℝ)
                 · simpa [SdfState.create] using hasDerivAt_const (0 : ℝ) (0 : ℝ))
    (by simpa [SdfState.create] using (hasDerivAt_id' (0 : ℝ)).fun_neg) 0
  have hv : sdfVelocity (SdfState.create (![0, 0] : Fin 2 → ℝ) (some ![1, 0]) (some (-1)) none (some (-0)) none)
      (fun a => (![0, 0] : Fin 2 → ℝ) a + rot2 realFns (-0) ![0, -1] a) 0 = 0 := by
    simp [sdfVelocity, spinVel, SdfState.create, rot2]
  rw [hv] at h
  simpa using h

/-- A spin about the third axis for which the hypotheses of `surface_velocity3` hold. -/
example (τ : ℝ) : UnitQuat ![Real.cos (τ / 2), 0, 0, Real.sin (τ / 2)] ∧
    ∀ k, HasDerivAt (fun τ : ℝ => (![Real.cos (τ / 2), 0, 0, Real.sin (τ / 2)] : Fin 4 → ℝ) k)
      (1 / 2 * qmul ![0, 0, 0, 1] ![Real.cos (τ / 2), 0, 0, Real.sin (τ / 2)] k) τ := by
  constructor
  · simp [UnitQuat]
  · have hd : HasDerivAt (fun τ : ℝ => τ / 2) (1 / 2) τ := by simpa using (hasDerivAt_id τ).div_const 2
    intro k
    fin_cases k
    · refine hd.cos.congr_deriv ?_
      simp [qmul]
      ring
    · refine (hasDerivAt_const τ (0 : ℝ)).congr_deriv ?_
      simp [qmul]
    · refine (hasDerivAt_const τ (0 : ℝ)).congr_deriv ?_
      simp [qmul]
    · refine hd.sin.congr_deriv ?_
      simp [qmul]
      ring

end Hydrax
