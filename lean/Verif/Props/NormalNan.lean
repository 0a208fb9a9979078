import Verif.Model.SdfDiff
import Verif.Props.GradNan
import Verif.Props.SdfNormal

/-!
# C142: contact normals and velocities are numbers
-/

namespace Hydrax

section
variable {ι κ : Type*}

/-! ### Substitution -/

theorem map_subst {V W : Type*} (f : V → W) (s : ι → Ex V κ) (e : Ex V ι) :
    (e.subst s).map f = (e.map f).subst fun i => (s i).map f := by
  induction e <;> simp_all [Ex.subst, Ex.map]

theorem eval_subst {V : Type*} (o : AdOps V) (s : ι → Ex V κ) (e : Ex V ι) (x : κ → V) :
    (e.subst s).eval o x = e.eval o fun i => (s i).eval o x := by
  induction e <;> simp_all [Ex.subst, Ex.eval]

theorem tame_subst {s : ι → Ex ℝ κ} {e : Ex ℝ ι} {x : κ → ℝ} (he : Spec.Tame (fun i => (s i).eval realAd x) e)
    (hs : ∀ i, Spec.Tame x (s i)) : Spec.Tame x (e.subst s) := by
  induction e <;> simp_all [Ex.subst, Spec.Tame, eval_subst]

theorem smooth_subst {s : ι → Ex ℝ κ} {e : Ex ℝ ι} {x : κ → ℝ} (he : Spec.SmoothProg (fun i => (s i).eval realAd x) e)
    (hs : ∀ i, Spec.SmoothProg x (s i)) : Spec.SmoothProg x (e.subst s) := by
  induction e <;> simp_all [Ex.subst, Spec.SmoothProg, eval_subst]

theorem tame_of_smooth {e : Ex ℝ ι} {x : ι → ℝ} (h : Spec.SmoothProg x e) : Spec.Tame x e := by
  induction e <;> simp_all [Spec.SmoothProg, Spec.Tame]

/-! ### Sums with NaN -/

theorem xr_nan_mul (a : XR) : XR.mul .nan a = .nan := by cases a <;> rfl
theorem xr_mul_nan (a : XR) : XR.mul a .nan = .nan := by cases a <;> rfl
theorem xr_nan_div (a : XR) : XR.div .nan a = .nan := by cases a <;> rfl
theorem xr_div_nan (a : XR) : XR.div a .nan = .nan := by cases a <;> rfl
theorem xr_nan_add (a : XR) : XR.add .nan a = .nan := by cases a <;> rfl
theorem xr_add_nan (a : XR) : XR.add a .nan = .nan := by cases a <;> rfl

theorem sumX_nan {n : ℕ} (f : Fin n → XR) (k : Fin n) (h : f k = .nan) : sumX f = .nan := by
  have hl : ∀ l : List (Fin n), k ∈ l → l.foldr (fun k s => XR.add (f k) s) (.num 0) = .nan := by
    intro l hk
    induction l with
    | nil => simp at hk
    | cons a l ih =>
      rcases List.mem_cons.mp hk with rfl | hk
      · exact ieee_add_of_nan (.inl h)
      · exact ieee_add_of_nan (.inr (ih hk))
  exact hl _ (List.mem_finRange k)

theorem sumX_num {n : ℕ} (f : Fin n → ℝ) : sumX (fun k => .num (f k)) = .num (∑ k, f k) := by
  have hl : ∀ l : List (Fin n), l.foldr (fun k s => XR.add (.num (f k)) s) (.num 0) = .num (l.map f).sum := by
    intro l
    induction l with
    | nil => rfl
    | cons a l ih => rw [List.foldr, ih]; rfl
  rw [sumX, hl, ← List.ofFn_eq_map, List.sum_ofFn]

theorem dotX_nan {n : ℕ} (u v : Fin n → XR) (k : Fin n) (h : v k = .nan) : dotX u v = .nan :=
  sumX_nan _ k (by simp only [h, xr_mul_nan])

theorem dotX_num {n : ℕ} (u v : Fin n → ℝ) : dotX (fun k => .num (u k)) (fun k => .num (v k)) = .num (dotv u v) :=
  sumX_num fun k => u k * v k

/-! ### What a NaN does to a step -/

/-- One component of the gradient that is NaN makes every component of the normal NaN. -/
theorem normal_nan {n : ℕ} (dist : Ex XR (Fin n)) (x : Fin n → XR) (k : Fin n) (h : adGrad ieeeAd dist x k = .nan) (a : Fin n) :
    normalX dist x a = .nan := by
  unfold normalX
  rw [dotX_nan _ _ k h]
  exact xr_div_nan _

/-- **C142**: contact with a normal that is not a number returns a velocity of which no component is a number. -/
theorem contact_nan {n : ℕ} (vIn : Fin n → XR) (dist : XR) (normal vWall : Fin n → XR) (mu dt gap bias : XR) (k : Fin n)
    (h : normal k = .nan) (a : Fin n) : contactX vIn dist normal vWall mu dt gap bias a = .nan := by
  simp only [contactX, dotX_nan _ _ k h, xr_nan_mul, xr_add_nan, xr_nan_add]

/-- **C142**: so the momentum of a node behind the surface becomes NaN, even that of a node without mass. -/
theorem collide_nan {n : ℕ} (gap : XR) {dist : ℝ} (hd : dist ≤ 0) (v normal vWall : Fin n → XR) (mu dt mass : XR) (k : Fin n)
    (h : normal k = .nan) (a : Fin n) : collideX gap (.num dist) v normal vWall mu dt mass a = .nan := by
  have hg : XR.ge (.num 0) (.num dist) = true := (ieee_ge _ _).mpr hd
  unfold collideX
  rw [if_pos hg, contact_nan _ _ _ _ _ _ _ _ k h]
  exact xr_nan_mul _

/-- The slip velocity of a point whose normal is NaN. -/
theorem ghost_nan {n : ℕ} (v normal vWall : Fin n → XR) (k : Fin n) (h : normal k = .nan) (a : Fin n) :
    ghostX v normal vWall a = .nan := by
  have hm : XR.min (.num 0) .nan = .nan := rfl
  have hn : XR.neg .nan = .nan := rfl
  simp only [ghostX, dotX_nan _ _ k h, hm, xr_nan_mul, subX, hn, xr_add_nan]

/-- The mask of a slot does not keep the NaN of the point out, even where it is one. -/
theorem mask_nan {n : ℕ} (mask : ℝ) (v ghost : Fin n → XR) (a : Fin n) (h : ghost a = .nan) : maskX mask v ghost a = .nan := by
  simp only [maskX, h, xr_nan_mul, xr_add_nan]

/-- One slot of the stencil that is NaN makes the velocity of the point NaN, even with weight zero. -/
theorem gather_nan {n m : ℕ} (w : Fin m → ℝ) (v : Fin m → Fin n → XR) (k : Fin m) (a : Fin n) (h : v k a = .nan) :
    gatherX w v a = .nan :=
  sumX_nan _ k (by simp only [h, xr_mul_nan])

/-- **C142**: a point whose normal is not a number loses its velocity in one USL step, whatever the grid returns and however far it is
from the wall. -/
theorem point_lost {n m : ℕ} (w mask : Fin m → ℝ) (k0 : Fin m) (vSlot : Fin m → Fin n → XR) (v normal vWall : Fin n → XR) (k : Fin n)
    (h : normal k = .nan) (a : Fin n) : gatherX w (fun j => maskX (mask j) (vSlot j) (ghostX v normal vWall)) a = .nan :=
  gather_nan w _ k0 a (mask_nan _ _ _ a (ghost_nan v normal vWall k h a))

/-- **C142**: a point loses its velocity if one node of its stencil has mass, is behind a surface and has a normal that is not a
number. -/
theorem node_lost {n m : ℕ} (w : Fin m → ℝ) (gap : XR) {dist : ℝ} (hd : dist ≤ 0) (v normal vWall : Fin n → XR) (mu dt : XR) {mass : ℝ}
    (hm : 1 / 10 ^ 12 < mass) (k : Fin n) (h : normal k = .nan) (vSlot : Fin m → Fin n → XR) (j : Fin m)
    (hj : vSlot j = slotX mass (collideX gap (.num dist) v normal vWall mu dt (.num mass))) (a : Fin n) :
    gatherX w vSlot a = .nan := by
  refine gather_nan w _ j a ?_
  rw [hj, slotX, if_pos hm, collide_nan gap hd v normal vWall mu dt _ k h]
  exact xr_nan_div _

/-! ### Where normals are NaN -/

/-- `jnp.linalg.norm` of the zero vector has NaN derivatives with respect to whatever the vector depends on. -/
theorem norm_grad_nan [DecidableEq κ] {n : ℕ} (s : Fin n → Ex XR κ) (x : κ → XR) (k : κ) (h0 : ∀ i, (s i).eval ieeeAd x = .num 0)
    (hk : ∃ i, Spec.Reaches x k (s i)) (w : XR) : (((normProg (K := ℝ)).map XR.num).subst s).cot ieeeAd x w k = .nan := by
  obtain ⟨i, hr⟩ := hk
  simp only [normProg, Ex.map, Ex.subst, Ex.cot, foldr_eval_zero s x _ h0, ieee_half_sqrt_zero]
  exact foldr_cot_nan s x k _ h0 ⟨i, List.mem_finRange i, hr⟩ (ieee_mul_pinf w)

theorem sphere_centre_cot {n : ℕ} (c : Fin n → ℝ) (r : ℝ) (a : Fin n) (w : XR) :
    ((sphereProg c r).map XR.num).cot ieeeAd (fun i => .num (c i)) w a = .nan := by
  refine nan_spreads _ _ _ a (norm_grad_nan (fun b => (Ex.sub (.var b) (.const (c b))).map XR.num) _ a (fun i => ?_) ⟨a, Or.inl rfl⟩) ?_ _
  · simp [Ex.map, Ex.eval]
  · simp [sphereProg, Ex.map, map_subst, Spec.Within, normProg, Ex.subst]

/-- **C142** (refuted in general): at its centre a sphere has no normal. -/
theorem sphere_centre_nan {n : ℕ} (c : Fin n → ℝ) (r : ℝ) (a : Fin n) :
    normalX ((sphereProg c r).map XR.num) (fun i => .num (c i)) a = .nan :=
  normal_nan _ _ a (sphere_centre_cot c r a _) a

/-- **C142** (refuted in general): on its axis a pipe has no normal, in any pose: `s` is the transformation to local coordinates. -/
theorem pipe_axis_nan (rOut rIn : ℝ) (s : Fin 3 → Ex XR (Fin 3)) (x : Fin 3 → XR) (h0 : (s 0).eval ieeeAd x = .num 0)
    (h2 : (s 2).eval ieeeAd x = .num 0) (k : Fin 3) (hk : Spec.Reaches x k (s 0) ∨ Spec.Reaches x k (s 2)) (a : Fin 3) :
    normalX (((pipeProg rOut rIn).map XR.num).subst s) x a = .nan := by
  refine normal_nan _ _ k ?_ a
  unfold adGrad
  refine nan_spreads _ _ _ k (norm_grad_nan (n := 2) ![s 0, s 2] x k (fun i => ?_) ?_) ?_ _
  · fin_cases i
    · exact h0
    · exact h2
  · rcases hk with h | h
    · exact ⟨0, h⟩
    · exact ⟨1, h⟩
  · simp [pipeProg, axisProg, combine2Prog, safeNormProg, normProg, Ex.map, Ex.subst, Spec.Within, List.finRange_succ]

/-- **C142** (refuted in general): the same for the centre of a ring in the plane. -/
theorem ring_centre_nan (rOut rIn : ℝ) (s : Fin 2 → Ex XR (Fin 2)) (x : Fin 2 → XR) (h0 : ∀ i, (s i).eval ieeeAd x = .num 0)
    (k : Fin 2) (hk : ∃ i, Spec.Reaches x k (s i)) (a : Fin 2) :
    normalX (((ringProg rOut rIn).map XR.num).subst s) x a = .nan := by
  refine normal_nan _ _ k ?_ a
  unfold adGrad
  refine nan_spreads _ _ _ k (norm_grad_nan s x k h0 hk) ?_ _
  simp [ringProg, combine2Prog, safeNormProg, normProg, Ex.map, Ex.subst, Spec.Within, List.finRange_succ]

/-- **C142** (refuted in general): on the circle in the middle of its tube a torus has no normal. -/
theorem torus_core_nan (R r : ℝ) (s : Fin 3 → Ex XR (Fin 3)) (x : Fin 3 → XR)
    (h0 : ((((Ex.sub ((safeNormProg (n := 2) (1 / 10 ^ 12)).subst ![.var 0, .var 2]) (.const R) : Ex ℝ (Fin 3)).map XR.num).subst s).eval
      ieeeAd x) = .num 0) (h1 : (s 1).eval ieeeAd x = .num 0) (k : Fin 3) (hk : Spec.Reaches x k (s 1)) (a : Fin 3) :
    normalX (((torusProg R r).map XR.num).subst s) x a = .nan := by
  refine normal_nan _ _ k ?_ a
  unfold adGrad
  refine nan_spreads _ _ _ k (norm_grad_nan (n := 2)
    ![((Ex.sub ((safeNormProg (n := 2) (1 / 10 ^ 12)).subst ![.var 0, .var 2]) (.const R) : Ex ℝ (Fin 3)).map XR.num).subst s, s 1] x k
    (fun i => ?_) ⟨1, hk⟩) ?_ _
  · fin_cases i
    · exact h0
    · exact h1
  · simp [torusProg, safeNormProg, normProg, Ex.map, Ex.subst, Spec.Within, List.finRange_succ]

/-- **C142** (refuted in general): an obstacle made of several parts has no normal where one of its parts has none, however far that
part is. -/
theorem composite_nan {n : ℕ} (d : Ex XR (Fin n)) (ds : List (Ex XR (Fin n))) (p : Ex XR (Fin n)) (hp : p ∈ d :: ds)
    (x : Fin n → XR) (k : Fin n) (h : ∀ w, p.cot ieeeAd x w k = .nan) (a : Fin n) :
    normalX (compositeProg d ds) x a = .nan := by
  refine normal_nan _ _ k ?_ a
  have hw : ∀ w, (ds.foldr Ex.min d).cot ieeeAd x w k = .nan := by
    induction ds with
    | nil =>
      rcases List.mem_cons.mp hp with rfl | hp
      · exact h
      · simp at hp
    | cons e ds ih =>
      intro w
      rcases List.mem_cons.mp hp with rfl | hp
      · exact ieee_add_of_nan (.inr (ih List.mem_cons_self _))
      · rcases List.mem_cons.mp hp with rfl | hp
        · exact ieee_add_of_nan (.inl (h _))
        · exact ieee_add_of_nan (.inr (ih (List.mem_cons_of_mem _ hp) _))
  exact hw _

theorem map_compositeProg {V W : Type*} (f : V → W) (d : Ex V ι) (ds : List (Ex V ι)) :
    (compositeProg d ds).map f = compositeProg (d.map f) (ds.map fun e => e.map f) := by
  unfold compositeProg
  induction ds with
  | nil => rfl
  | cons e ds ih => simp [Ex.map, ih]

/-- **C142** (refuted in general): a cloud of points has no normal where one of them is, for instance at a node on which a point of
the regular layout lies. -/
theorem cloud_nan {n : ℕ} (p : (Fin n → ℝ) × ℝ) (ps : List ((Fin n → ℝ) × ℝ)) (q : (Fin n → ℝ) × ℝ) (hq : q ∈ p :: ps) (a : Fin n) :
    normalX ((cloudProg p ps).map XR.num) (fun i => .num (q.1 i)) a = .nan := by
  rw [cloudProg, map_compositeProg]
  refine composite_nan _ _ ((sphereProg q.1 q.2).map XR.num) ?_ _ a (sphere_centre_cot q.1 q.2 a) a
  rcases List.mem_cons.mp hq with rfl | hq
  · exact List.mem_cons_self
  · refine List.mem_cons_of_mem _ ?_
    simp only [List.map_map, List.mem_map]
    exact ⟨q, hq, rfl⟩

/-! ### Where they are numbers -/

theorem subX_num (a b : ℝ) : subX (.num a) (.num b) = .num (a - b) := ieee_sub a b
theorem xr_add (a b : ℝ) : XR.add (.num a) (.num b) = .num (a + b) := rfl
theorem xr_mul (a b : ℝ) : XR.mul (.num a) (.num b) = .num (a * b) := rfl
theorem xr_max (a b : ℝ) : XR.max (.num a) (.num b) = .num (max a b) := rfl
theorem xr_min (a b : ℝ) : XR.min (.num a) (.num b) = .num (min a b) := ieee_min a b
theorem xr_div (a : ℝ) {b : ℝ} (h : b ≠ 0) : XR.div (.num a) (.num b) = .num (a / b) := ieee_div a h
theorem xr_sqrt {a : ℝ} (h : 0 ≤ a) : XR.sqrt (.num a) = .num √a := ieee_sqrt h

theorem dotv_self_nonneg {n : ℕ} (v : Fin n → ℝ) : 0 ≤ dotv v v := Finset.sum_nonneg fun a _ => mul_self_nonneg (v a)

theorem sqrt_add_ne {a : ℝ} : √a + 1 / 10 ^ 12 ≠ 0 := (add_pos_of_nonneg_of_pos (Real.sqrt_nonneg a) (by norm_num)).ne'

/-- **C142**: where a distance has no pole, its normal is a vector of numbers, that of exact arithmetic. -/
theorem normal_number {n : ℕ} (e : Ex ℝ (Fin n)) (x : Fin n → ℝ) (h : Spec.Tame x e) (a : Fin n) :
    normalX (e.map XR.num) (fun i => .num (x i)) a =
      .num (autoNormal Real.sqrt (fun _ => adGrad realAd e) (fun y => e.eval realAd y) x a) := by
  have hg : adGrad ieeeAd (e.map XR.num) (fun i => .num (x i)) = fun k => .num (adGrad realAd e x k) :=
    funext fun k => ieee_reverse e x 1 k h
  unfold normalX autoNormal
  rw [hg, dotX_num, xr_sqrt (dotv_self_nonneg _), xr_add, xr_div _ sqrt_add_ne]
  simp only [dotv, sq]

/-- **C142**: with a normal of numbers contact returns numbers, those of exact arithmetic. -/
theorem contact_number {n : ℕ} (vIn : Fin n → ℝ) (dist : ℝ) (normal vWall : Fin n → ℝ) (mu : ℝ) {dt : ℝ} (hdt : dt ≠ 0) (gap bias : ℝ)
    (a : Fin n) : contactX (fun k => .num (vIn k)) (.num dist) (fun k => .num (normal k)) (fun k => .num (vWall k)) (.num mu) (.num dt)
      (.num gap) (.num bias) a = .num (frictionalContact Real.sqrt vIn dist normal vWall mu dt gap bias a) := by
  have hgt : ∀ u : ℝ, (XR.ge (.num u) (.num (1 / 10 ^ 12)) && !XR.eq (.num u) (.num (1 / 10 ^ 12))) = true ↔ u > 1 / 10 ^ 12 := by
    intro u
    have h1 : (XR.ge (.num u) (.num (1 / 10 ^ 12)) = true) ↔ 1 / 10 ^ 12 ≤ u := ieee_ge _ _
    have h2 : (XR.eq (.num u) (.num (1 / 10 ^ 12)) = true) ↔ u = 1 / 10 ^ 12 := ieee_eq _ _
    rw [Bool.and_eq_true, Bool.not_eq_true', ← Bool.not_eq_true, h1, h2]
    exact ⟨fun h => lt_of_le_of_ne h.1 (Ne.symm h.2), fun h => ⟨h.le, h.ne'⟩⟩
  have hif : ∀ (p : Prop) [Decidable p] (a b : ℝ), (if p then XR.num a else XR.num b) = XR.num (if p then a else b) := by
    intro p _ a b; split_ifs <;> rfl
  simp only [contactX, frictionalContact, subX_num, dotX_num, xr_div _ hdt, xr_mul, xr_max, xr_add, xr_sqrt (dotv_self_nonneg _), hgt,
    xr_min, hif, xr_div _ sqrt_add_ne]

/-- **C142**: so does the collider. -/
theorem collide_number {n : ℕ} (gap dist : ℝ) (v normal vWall : Fin n → ℝ) (mu : ℝ) {dt : ℝ} (hdt : dt ≠ 0) (mass : ℝ) (a : Fin n) :
    collideX (.num gap) (.num dist) (fun k => .num (v k)) (fun k => .num (normal k)) (fun k => .num (vWall k)) (.num mu) (.num dt)
      (.num mass) a = .num (collideNode Real.sqrt gap dist v normal vWall mu dt a * mass) := by
  have hg : (XR.ge (.num 0) (.num dist) = true) ↔ dist ≤ 0 := ieee_ge _ _
  have hc : (dist ≤ 0 ∨ dist ≤ 0 ∧ dotv (fun a => v a - vWall a) normal < 0) ↔ dist ≤ 0 := ⟨fun h => h.elim id (·.1), .inl⟩
  unfold collideX collideNode
  simp only [hg, hc]
  split_ifs with h
  · rw [contact_number _ _ _ _ _ hdt]; rfl
  · rfl

/-- **C142**: and the new velocity of a point in the USL step. -/
theorem point_number {n m : ℕ} (w mask : Fin m → ℝ) (vSlot : Fin m → Fin n → ℝ) (v normal vWall : Fin n → ℝ) (a : Fin n) :
    gatherX w (fun j => maskX (mask j) (fun k => .num (vSlot j k))
      (ghostX (fun k => .num (v k)) (fun k => .num (normal k)) fun k => .num (vWall k))) a =
    .num (∑ j, w j * (vSlot j a * mask j +
      (vWall a + ((v a - vWall a) - min 0 (dotv (fun b => v b - vWall b) normal) * normal a)) * (1 - mask j))) := by
  simp only [gatherX, maskX, ghostX, subX_num, dotX_num, xr_min, xr_mul, xr_add, sumX_num]

/-! ### The distances of the model -/

theorem foldr_sq_eval {n : ℕ} (x : Fin n → ℝ) (l : List (Fin n)) :
    (l.foldr (fun k e => Ex.add (.mul (.var k) (.var k)) e) (.const 0) : Ex ℝ (Fin n)).eval realAd x = (l.map fun k => x k ^ 2).sum := by
  induction l with
  | nil => rfl
  | cons a l ih => simp only [List.foldr, Ex.eval, realAd_add, realAd_mul, ih, List.map, List.sum_cons, sq]

theorem normProg_eval {n : ℕ} (x : Fin n → ℝ) : normProg.eval realAd x = norm2 realFns x := by
  simp only [normProg, Ex.eval, realAd_sqrt, foldr_sq_eval]
  rw [← List.ofFn_eq_map, List.sum_ofFn]
  rfl

theorem absProg_eval (e : Ex ℝ ι) (x : ι → ℝ) : (absProg e).eval realAd x = |e.eval realAd x| := rfl

theorem sphereProg_eval {n : ℕ} (c : Fin n → ℝ) (r : ℝ) (x : Fin n → ℝ) :
    (sphereProg c r).eval realAd x = sphereDist realFns r fun a => x a - c a := by
  simp only [sphereProg, Ex.eval, eval_subst, normProg_eval, realAd_sub, sphereDist]

theorem planeProg_eval {n : ℕ} (m x : Fin n → ℝ) : (planeProg m).eval realAd x = planeDist m x := by
  have h : ∀ l : List (Fin n), (l.foldr (fun k e => Ex.add (.mul (.var k) (.const (m k))) e) (.const 0) : Ex ℝ (Fin n)).eval realAd x =
      (l.map fun k => x k * m k).sum := by
    intro l
    induction l with
    | nil => rfl
    | cons a l ih => simp only [List.foldr, Ex.eval, realAd_add, realAd_mul, ih, List.map, List.sum_cons]
  rw [planeProg, h, ← List.ofFn_eq_map, List.sum_ofFn]
  rfl

theorem maxvProg_eval {m : ℕ} (d : Fin (m + 1) → Ex ℝ ι) (x : ι → ℝ) :
    (maxvProg d).eval realAd x = maxv fun a => (d a).eval realAd x := by
  have h : ∀ (l : List (Fin m)) (y : ℝ), y = (((l.map fun a => d a.succ).foldr Ex.max (d 0)).eval realAd x) →
      (d 0).eval realAd x ≤ y ∧ (∀ a ∈ l, (d a.succ).eval realAd x ≤ y) ∧ ∃ a, y = (d a).eval realAd x := by
    intro l
    induction l with
    | nil => rintro y rfl; exact ⟨le_refl _, by simp, 0, rfl⟩
    | cons b l ih =>
      rintro y rfl
      obtain ⟨h0, hl, a, ha⟩ := ih _ rfl
      simp only [List.map, List.foldr, Ex.eval, realAd_max]
      refine ⟨le_max_of_le_right h0, ?_, ?_⟩
      · intro c hc
        rcases List.mem_cons.mp hc with rfl | hc
        · exact le_max_left _ _
        · exact le_max_of_le_right (hl c hc)
      · rcases max_choice ((d b.succ).eval realAd x) (((l.map fun a => d a.succ).foldr Ex.max (d 0)).eval realAd x) with h | h
        · exact ⟨_, h⟩
        · exact ⟨a, h.trans ha⟩
  obtain ⟨h0, hl, a, ha⟩ := h (List.finRange m) _ rfl
  rw [maxvProg, maxv]
  refine le_antisymm ?_ ?_
  · rw [ha]; exact Finset.le_sup' (fun a => (d a).eval realAd x) (Finset.mem_univ a)
  · refine Finset.sup'_le _ _ fun b _ => ?_
    refine Fin.cases h0 (fun c => hl c (List.mem_finRange c)) b

theorem boxProg_eval {m : ℕ} (half x : Fin (m + 1) → ℝ) : (boxProg half).eval realAd x = boxDist realFns half x := by
  simp only [boxProg, Ex.eval, eval_subst, safeNormProg_eval, maxvProg_eval, absProg_eval, realAd_add, realAd_min, realAd_max, realAd_sub,
    boxDist]

theorem capsuleProg_eval (r hh : ℝ) {m : ℕ} (x : Fin (m + 2) → ℝ) : (capsuleProg r hh).eval realAd x = capsuleDist realFns r hh x := by
  simp only [capsuleProg, Ex.eval, eval_subst, safeNormProg_eval, realAd_sub, capsuleDist]
  congr 2
  funext a
  by_cases h : a = 1
  · subst h; simp [Function.update_self, Ex.eval, clipProg, clipK]
  · rw [if_neg h, Function.update_of_ne h]; rfl

theorem combine2Prog_eval (a b : Ex ℝ ι) (x : ι → ℝ) :
    (combine2Prog a b).eval realAd x = combine2 realFns (a.eval realAd x) (b.eval realAd x) := by
  simp only [combine2Prog, Ex.eval, eval_subst, safeNormProg_eval, realAd_add, realAd_min, realAd_max, combine2]
  congr 2
  funext i
  fin_cases i <;> rfl

theorem cylinderProg_eval (r hh : ℝ) (x : Fin 3 → ℝ) : (cylinderProg r hh).eval realAd x = cylinderDist realFns r hh x := by
  rw [cylinderProg, combine2Prog_eval, cylinderDist]
  simp only [Ex.eval, eval_subst, safeNormProg_eval, absProg_eval, realAd_sub]
  congr 3
  funext i
  fin_cases i <;> rfl

theorem axisProg_eval (x : Fin 3 → ℝ) : axisProg.eval realAd x = norm2 realFns ![x 0, x 2] := by
  rw [axisProg, eval_subst, normProg_eval]
  congr 1
  funext i
  fin_cases i <;> rfl

theorem pipeProg_eval (height rOut rIn : ℝ) (x : Fin 3 → ℝ) : (pipeProg rOut rIn).eval realAd x = hollow3Dist realFns height rOut rIn x := by
  rw [pipeProg, combine2Prog_eval]
  simp only [Ex.eval, axisProg_eval, realAd_max, realAd_sub, hollow3Dist]

theorem ringProg_eval (height rOut rIn : ℝ) (x : Fin 2 → ℝ) :
    (ringProg rOut rIn).eval realAd x = hollow2Dist realFns true height rOut rIn x := by
  rw [ringProg, combine2Prog_eval]
  simp only [Ex.eval, normProg_eval, realAd_max, realAd_sub, hollow2Dist, if_true]

theorem torusProg_eval (R r : ℝ) (x : Fin 3 → ℝ) : (torusProg R r).eval realAd x = torusDist realFns R r x := by
  simp only [torusProg, Ex.eval, eval_subst, normProg_eval, realAd_sub, torusDist]
  congr 2
  funext i
  fin_cases i
  · simp only [Fin.zero_eta, Matrix.cons_val_zero, Ex.eval, eval_subst, safeNormProg_eval, realAd_sub]
    congr 2
    funext j
    fin_cases j <;> rfl
  · rfl

theorem localProg2_eval (s : SdfState ℝ 2) (x : Fin 2 → ℝ) (a : Fin 2) :
    (localProg2 (realFns.cos s.angle) (realFns.sin s.angle) s.com a).eval realAd x = toLocal realFns s x a := by
  fin_cases a <;> rfl

theorem localProg3_eval (s : SdfState ℝ 3) (x : Fin 3 → ℝ) (a : Fin 3) :
    (localProg3 s.quat s.com a).eval realAd x = toLocal realFns s x a := by
  fin_cases a <;> rfl

/-! ### Every obstacle -/

theorem local2_tame (c t : ℝ) (com x : Fin 2 → ℝ) (a : Fin 2) : Spec.Tame x (localProg2 c t com a) := by
  fin_cases a <;> simp [localProg2, Spec.Tame]

theorem cross_tame {u : Fin 3 → ℝ} {v : Fin 3 → Ex ℝ ι} {x : ι → ℝ} (hv : ∀ a, Spec.Tame x (v a)) (a : Fin 3) :
    Spec.Tame x (crossProg u v a) := by
  fin_cases a <;> simp [crossProg, Spec.Tame, hv]

theorem local3_tame (q : Fin 4 → ℝ) (com x : Fin 3 → ℝ) (a : Fin 3) : Spec.Tame x (localProg3 q com a) := by
  have hv : ∀ a, Spec.Tame x (Ex.sub (.var a) (.const (com a))) := fun a => ⟨trivial, trivial⟩
  exact ⟨hv a, trivial, ⟨trivial, cross_tame hv a⟩, cross_tame (cross_tame hv) a⟩

/-- In any pose in the plane. -/
theorem posed2_tame {e : Ex ℝ (Fin 2)} {s : SdfState ℝ 2} {x : Fin 2 → ℝ} (h : Spec.Tame (toLocal realFns s x) e) :
    Spec.Tame x (e.subst (localProg2 (realFns.cos s.angle) (realFns.sin s.angle) s.com)) := by
  refine tame_subst ?_ (local2_tame _ _ _ x)
  simp only [localProg2_eval]
  exact h

/-- In any pose in space. -/
theorem posed3_tame {e : Ex ℝ (Fin 3)} {s : SdfState ℝ 3} {x : Fin 3 → ℝ} (h : Spec.Tame (toLocal realFns s x) e) :
    Spec.Tame x (e.subst (localProg3 s.quat s.com)) := by
  refine tame_subst ?_ (local3_tame _ _ x)
  simp only [localProg3_eval]
  exact h

theorem safeNorm_subst_tame {n : ℕ} {s : Fin n → Ex ℝ ι} {x : ι → ℝ} (hs : ∀ i, Spec.Tame x (s i)) :
    Spec.Tame x ((safeNormProg (1 / 10 ^ 12)).subst s) := tame_subst (safeNorm_tame (by norm_num) _) hs

theorem norm_tame {n : ℕ} {x : Fin n → ℝ} (hx : norm2 realFns x ≠ 0) : Spec.Tame x normProg := by
  have h := normProg_eval x
  refine ⟨(foldr_tame x _).1, lt_of_le_of_ne (foldr_tame x _).2 fun h0 => hx ?_⟩
  rw [← h, normProg, Ex.eval, ← h0, realAd_sqrt, Real.sqrt_zero]

/-- **C142**: boxes have normals everywhere, edges and centre included. -/
theorem box_tame {m : ℕ} (half x : Fin (m + 1) → ℝ) : Spec.Tame x (boxProg half) := by
  have hd : ∀ a, Spec.Tame x (Ex.sub (absProg (.var a)) (.const (half a))) := fun a => ⟨⟨trivial, trivial⟩, trivial⟩
  refine ⟨safeNorm_subst_tame fun a => ⟨hd a, trivial⟩, ?_, trivial⟩
  have : ∀ l : List (Fin m), Spec.Tame x ((l.map fun a => Ex.sub (absProg (.var a.succ)) (.const (half a.succ))).foldr Ex.max
      (Ex.sub (absProg (.var 0)) (.const (half 0)))) := by
    intro l
    induction l with
    | nil => exact hd 0
    | cons a l ih => exact ⟨hd a.succ, ih⟩
  exact this _

/-- **C142**: so have half spaces, -/
theorem plane_tame {n : ℕ} (m x : Fin n → ℝ) : Spec.Tame x (planeProg m) := by
  unfold planeProg
  induction List.finRange n with
  | nil => trivial
  | cons a l ih => exact ⟨⟨trivial, trivial⟩, ih⟩

/-- **C142**: capsules, -/
theorem capsule_tame (r hh : ℝ) {m : ℕ} (x : Fin (m + 2) → ℝ) : Spec.Tame x (capsuleProg r hh) := by
  refine ⟨safeNorm_subst_tame fun a => ?_, trivial⟩
  split_ifs
  · exact ⟨trivial, clipProg_tame trivial⟩
  · trivial

theorem combine2_tame {a b : Ex ℝ ι} {x : ι → ℝ} (ha : Spec.Tame x a) (hb : Spec.Tame x b) : Spec.Tame x (combine2Prog a b) := by
  refine ⟨safeNorm_subst_tame fun i => ?_, ⟨ha, hb⟩, trivial⟩
  fin_cases i
  · exact ⟨ha, trivial⟩
  · exact ⟨hb, trivial⟩

/-- **C142**: and cylinders. -/
theorem cylinder_tame (r hh : ℝ) (x : Fin 3 → ℝ) : Spec.Tame x (cylinderProg r hh) := by
  refine combine2_tame ⟨safeNorm_subst_tame fun i => ?_, trivial⟩ ⟨⟨trivial, trivial⟩, trivial⟩
  fin_cases i <;> trivial

/-- **C142**: a sphere has normals away from its centre, -/
theorem sphere_tame {n : ℕ} (c : Fin n → ℝ) (r : ℝ) {x : Fin n → ℝ} (hx : norm2 realFns (fun a => x a - c a) ≠ 0) :
    Spec.Tame x (sphereProg c r) :=
  ⟨tame_subst (norm_tame hx) fun _ => ⟨trivial, trivial⟩, trivial⟩

theorem axis_tame {x : Fin 3 → ℝ} (hx : norm2 realFns ![x 0, x 2] ≠ 0) : Spec.Tame x axisProg := by
  refine tame_subst (norm_tame ?_) fun i => by fin_cases i <;> trivial
  have : (fun i => ((![.var 0, .var 2] : Fin 2 → Ex ℝ (Fin 3)) i).eval realAd x) = ![x 0, x 2] := by
    funext i; fin_cases i <;> rfl
  rw [this]
  exact hx

/-- **C142**: a pipe away from its axis, -/
theorem pipe_tame (rOut rIn : ℝ) {x : Fin 3 → ℝ} (hx : norm2 realFns ![x 0, x 2] ≠ 0) : Spec.Tame x (pipeProg rOut rIn) :=
  combine2_tame ⟨⟨axis_tame hx, trivial⟩, trivial, axis_tame hx⟩ trivial

/-- **C142**: a ring away from its centre, -/
theorem ring_tame (rOut rIn : ℝ) {x : Fin 2 → ℝ} (hx : norm2 realFns x ≠ 0) : Spec.Tame x (ringProg rOut rIn) :=
  combine2_tame ⟨⟨norm_tame hx, trivial⟩, trivial, norm_tame hx⟩ trivial

/-- **C142**: a torus away from the middle of its tube, -/
theorem torus_tame (R r : ℝ) {x : Fin 3 → ℝ} (hx : torusDist realFns R 0 x ≠ 0) : Spec.Tame x (torusProg R r) := by
  refine ⟨tame_subst (norm_tame ?_) fun i => ?_, trivial⟩
  · rw [← normProg_eval, ← eval_subst]
    rw [← torusProg_eval] at hx
    simpa only [torusProg, Ex.eval, realAd_sub, sub_zero] using hx
  · fin_cases i
    · exact ⟨safeNorm_subst_tame fun j => by fin_cases j <;> trivial, trivial⟩
    · trivial

/-- **C142**: and a composite wherever all its parts have. -/
theorem composite_tame {d : Ex ℝ ι} {ds : List (Ex ℝ ι)} {x : ι → ℝ} (h : ∀ p ∈ d :: ds, Spec.Tame x p) :
    Spec.Tame x (compositeProg d ds) := by
  unfold compositeProg
  induction ds with
  | nil => exact h d List.mem_cons_self
  | cons e ds ih =>
    refine ⟨h e (by simp), ih fun p hp => h p ?_⟩
    rcases List.mem_cons.mp hp with rfl | hp
    · simp
    · simp [hp]

end

/-! ### The normal of the code is the gradient -/

/-- Reverse mode gives the gradient asked for by the theorems on normals (C83). -/
theorem ad_isGradient {n : ℕ} (e : Ex ℝ (Fin n)) (x : Fin n → ℝ) (h : Spec.SmoothProg x e) :
    Spec.IsGradient (adGrad realAd e x) (fun y => e.eval realAd y) x := by
  obtain ⟨D, hD, eD⟩ := ad_grad_exact e x h
  unfold Spec.IsGradient
  have e1 : (∑ a, adGrad realAd e x a • ContinuousLinearMap.proj (R := ℝ) (φ := fun _ => ℝ) a) = D := by
    refine ContinuousLinearMap.ext fun v => ?_
    rw [eD]
    simp
  rw [e1]
  exact hD

theorem norm_smooth {n : ℕ} {x : Fin n → ℝ} (hx : norm2 realFns x ≠ 0) : Spec.SmoothProg x normProg := by
  refine ⟨?_, (norm_tame hx).2⟩
  induction List.finRange n with
  | nil => trivial
  | cons a l ih => exact ⟨⟨trivial, trivial⟩, ih⟩

/-- **C142**: away from the centre of a sphere the normal that the code computes, NaN and all, is the unit vector away from the
centre up to a factor `1 / (1 + 1e-12)`. -/
theorem sphere_normal_code {n : ℕ} (r : ℝ) (s : SdfState ℝ n) (x : Fin n → ℝ) (hx : Spec.eDist x s.com ≠ 0) (a : Fin n) :
    normalX ((sphereProg s.com r).map XR.num) (fun i => .num (x i)) a = .num ((x a - s.com a) / Spec.eDist x s.com / (1 + 1 / 10 ^ 12)) := by
  have hn : norm2 realFns (fun a => x a - s.com a) ≠ 0 := by
    rw [norm2_eDist]
    have := eDist_shift x s.com s.com
    simp only [sub_self] at this
    rwa [this]
  have hd : (fun y => (sphereProg s.com r).eval realAd y) = (sphereSdf realFns (fun _ => adGrad realAd (sphereProg s.com r)) r).dist s :=
    funext fun y => sphereProg_eval s.com r y
  rw [normal_number _ _ (sphere_tame s.com r hn)]
  congr 1
  have hg := ad_isGradient (sphereProg s.com r) x ⟨smooth_subst (norm_smooth hn) fun _ => ⟨trivial, trivial⟩, trivial⟩
  rw [hd] at hg
  rw [← sphere_normal (fun _ => adGrad realAd (sphereProg s.com r)) r s x hx hg a]
  rfl

/-! ### Obstacles of the code -/

/-- **C142** (refuted): a point exactly on the axis of a pipe, in whatever pose, loses its velocity in one step of the USL solver if
the pipe is its nearest obstacle, though it touches nothing. -/
theorem pipe_point_lost (rOut rIn : ℝ) (s : SdfState ℝ 3) (x : Fin 3 → ℝ) (h0 : toLocal realFns s x 0 = 0) (h2 : toLocal realFns s x 2 = 0)
    {m : ℕ} (w mask : Fin m → ℝ) (k0 : Fin m) (vSlot : Fin m → Fin 3 → XR) (v vWall : Fin 3 → XR) (a : Fin 3) :
    gatherX w (fun j => maskX (mask j) (vSlot j) (ghostX v
      (normalX (((pipeProg rOut rIn).subst (localProg3 s.quat s.com)).map XR.num) fun i => .num (x i)) vWall)) a = .nan := by
  refine point_lost w mask k0 vSlot v _ vWall 0 ?_ a
  rw [map_subst]
  refine pipe_axis_nan rOut rIn _ _ ?_ ?_ 0 (.inl ?_) 0
  · rw [ieee_eval _ _ (local3_tame _ _ _ _), localProg3_eval, h0]
  · rw [ieee_eval _ _ (local3_tame _ _ _ _), localProg3_eval, h2]
  · exact Or.inl (Or.inl rfl)

/-- **C142** (refuted): the same in the plane for a point in the centre of a ring. -/
theorem ring_point_lost (rOut rIn : ℝ) (s : SdfState ℝ 2) (x : Fin 2 → ℝ) (hx : ∀ a, toLocal realFns s x a = 0)
    {m : ℕ} (w mask : Fin m → ℝ) (k0 : Fin m) (vSlot : Fin m → Fin 2 → XR) (v vWall : Fin 2 → XR) (a : Fin 2) :
    gatherX w (fun j => maskX (mask j) (vSlot j) (ghostX v
      (normalX (((ringProg rOut rIn).subst (localProg2 (realFns.cos s.angle) (realFns.sin s.angle) s.com)).map XR.num) fun i => .num (x i))
      vWall)) a = .nan := by
  refine point_lost w mask k0 vSlot v _ vWall 0 ?_ a
  rw [map_subst]
  refine ring_centre_nan rOut rIn _ _ (fun i => ?_) 0 ⟨0, ?_⟩ 0
  · rw [ieee_eval _ _ (local2_tame _ _ _ _ _), localProg2_eval, hx]
  · exact Or.inl (Or.inr (Or.inl rfl))

/-- **C142** (refuted): a silo made of a pipe and a floor: on the axis every node behind the floor that has mass turns the velocity
of the points around it into NaN. -/
theorem silo_node_lost (rOut rIn : ℝ) (floor : Fin 3 → ℝ) (s : SdfState ℝ 3) (x : Fin 3 → ℝ) (h0 : toLocal realFns s x 0 = 0)
    (h2 : toLocal realFns s x 2 = 0) {m : ℕ} (w : Fin m → ℝ) (gap : XR) {dist : ℝ} (hd : dist ≤ 0) (v vWall : Fin 3 → XR) (mu dt : XR)
    {mass : ℝ} (hm : 1 / 10 ^ 12 < mass) (vSlot : Fin m → Fin 3 → XR) (j : Fin m)
    (hj : vSlot j = slotX mass (collideX gap (.num dist) v
      (normalX (((compositeProg (planeProg floor) [pipeProg rOut rIn]).subst (localProg3 s.quat s.com)).map XR.num) fun i => .num (x i))
      vWall mu dt (.num mass))) (a : Fin 3) : gatherX w vSlot a = .nan := by
  refine node_lost w gap hd v _ vWall mu dt hm 0 ?_ vSlot j hj a
  refine normal_nan _ _ 0 ?_ 0
  have hp : ∀ w, (((pipeProg rOut rIn).map XR.num).subst fun i => (localProg3 s.quat s.com i).map XR.num).cot ieeeAd
      (fun i => .num (x i)) w 0 = .nan := by
    refine nan_spreads _ _ _ 0 (norm_grad_nan (n := 2) ![(localProg3 s.quat s.com 0).map XR.num, (localProg3 s.quat s.com 2).map XR.num] _ 0
      (fun i => ?_) ⟨0, Or.inl (Or.inl rfl)⟩) ?_
    · fin_cases i
      · change ((localProg3 s.quat s.com 0).map XR.num).eval ieeeAd _ = _
        rw [ieee_eval _ _ (local3_tame _ _ _ _), localProg3_eval, h0]
      · change ((localProg3 s.quat s.com 2).map XR.num).eval ieeeAd _ = _
        rw [ieee_eval _ _ (local3_tame _ _ _ _), localProg3_eval, h2]
    · simp [pipeProg, axisProg, combine2Prog, safeNormProg, normProg, Ex.map, Ex.subst, Spec.Within, List.finRange_succ]
  rw [map_subst]
  exact ieee_add_of_nan (.inl (hp _))

/-- The axis is free space: there the distance to a pipe of inner radius one is positive. -/
example : 0 < hollow3Dist realFns 1 (6 / 5) 1 ![0, -1, 0] := by
  have h : norm2 realFns (![0, 0] : Fin 2 → ℝ) = 0 := by simp [norm2, Fin.sum_univ_two, realFns]
  simp only [hollow3Dist, Matrix.cons_val_zero, Matrix.cons_val, h]
  unfold combine2
  have h1 : max (max (0 - 6 / 5 : ℝ) (1 - 0)) (-1) = 1 := by norm_num
  rw [h1, min_eq_right (by norm_num), add_zero]
  exact Real.sqrt_pos.mpr (add_pos_of_nonneg_of_pos (Finset.sum_nonneg fun a _ => sq_nonneg _) (by norm_num))

/-- A point on the axis of an upright pipe centred at (2, 0, 3). -/
example (a : Fin 3) : gatherX (m := 2) ![1 / 2, 1 / 2] (fun j => maskX (![1, 1] j) (fun _ => .num 0) (ghostX (fun _ => .num 0)
    (normalX (((pipeProg (6 / 5) 1).subst (localProg3 (SdfState.create ![2, 0, 3] : SdfState ℝ 3).quat
      (SdfState.create ![2, 0, 3] : SdfState ℝ 3).com)).map XR.num) fun i => .num (![2, -1, 3] i)) fun _ => .num 0)) a = .nan :=
  pipe_point_lost (6 / 5) 1 (SdfState.create ![2, 0, 3]) ![2, -1, 3]
    (by simp [toLocal, rotInv, SdfState.create, quatRotate, quatInv, qVec, cross3])
    (by simp [toLocal, rotInv, SdfState.create, quatRotate, quatInv, qVec, cross3]) _ _ 0 _ _ _ a

/-- Beside the axis the same pipe has a normal. -/
example (a : Fin 3) : ∃ r, normalX ((pipeProg (6 / 5) 1).map XR.num) (fun i => .num (![1 / 2, -1, 0] i)) a = .num r :=
  ⟨_, normal_number (pipeProg (6 / 5) 1) ![1 / 2, -1, 0] (pipe_tame _ _ (by
    have : norm2 realFns (![1 / 2, 0] : Fin 2 → ℝ) ≠ 0 := by
      simp only [norm2, Fin.sum_univ_two]
      exact (Real.sqrt_pos.mpr (by norm_num)).ne'
    simpa using this)) a⟩

/-- The centre of a box, where three faces and three edges tie. -/
example (a : Fin 3) : ∃ r, normalX ((boxProg fun _ : Fin 3 => (1 : ℝ)).map XR.num) (fun _ => .num 0) a = .num r :=
  ⟨_, normal_number (boxProg fun _ : Fin 3 => (1 : ℝ)) (fun _ => 0) (box_tame _ _) a⟩

/-- A sphere of radius two around (1, 1). -/
example : normalX ((sphereProg (![1, 1] : Fin 2 → ℝ) 2).map XR.num) (fun i => .num (![4, 5] i)) 0 = .num (3 / 5 / (1 + 1 / 10 ^ 12)) := by
  have he : Spec.eDist (![4, 5] : Fin 2 → ℝ) ![1, 1] = 5 := by
    have : (∑ a : Fin 2, ((![4, 5] : Fin 2 → ℝ) a - (![1, 1] : Fin 2 → ℝ) a) ^ 2) = 5 ^ 2 := by
      simp [Fin.sum_univ_two]; norm_num
    unfold Spec.eDist
    rw [this]
    exact Real.sqrt_sq (by norm_num)
  have := sphere_normal_code 2 (SdfState.create ![1, 1] : SdfState ℝ 2) ![4, 5] (by simp only [SdfState.create]; rw [he]; norm_num) 0
  simp only [SdfState.create, he] at this
  rw [this]
  simp; norm_num

end Hydrax
