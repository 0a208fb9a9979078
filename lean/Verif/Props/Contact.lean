import Verif.Lemmas.SceneEst
import Verif.Lemmas.ExampleScene
import Verif.Lemmas.RealFns
import Mathlib.Tactic.FieldSimp
import Mathlib.Tactic.Positivity

/-!
# Properties C24, C25, C26, C28, C29: obstacles, damping, contact
-/

set_option linter.unusedSectionVars false

namespace Hydrax

/-- Inner product. -/
def Spec.dot {K : Type*} [Field K] {dim : ℕ} (u v : Fin dim → K) : K := ∑ a, u a * v a

/-- Part of `u` tangential to a wall with unit normal `n`. -/
def Spec.tang {K : Type*} [Field K] {dim : ℕ} (n u : Fin dim → K) : Fin dim → K :=
  fun a => u a - Spec.dot u n * n a

section
variable {K : Type*} [Field K] {dim : ℕ}

theorem dot_add (u v w : Fin dim → K) : Spec.dot (fun a => u a + v a) w = Spec.dot u w + Spec.dot v w := by
  simp only [Spec.dot, add_mul, Finset.sum_add_distrib]

theorem dot_sub (u v w : Fin dim → K) : Spec.dot (fun a => u a - v a) w = Spec.dot u w - Spec.dot v w := by
  simp only [Spec.dot, sub_mul, Finset.sum_sub_distrib]

theorem dot_smul (c : K) (u w : Fin dim → K) : Spec.dot (fun a => c * u a) w = c * Spec.dot u w := by
  simp only [Spec.dot, mul_assoc, Finset.mul_sum]

theorem dot_smul' (c : K) (u w : Fin dim → K) : Spec.dot (fun a => u a * c) w = c * Spec.dot u w := by
  rw [← dot_smul]; simp only [mul_comm]

theorem dot_comm (u w : Fin dim → K) : Spec.dot u w = Spec.dot w u := by
  simp only [Spec.dot, mul_comm]

theorem tang_dot {n : Fin dim → K} (hn : Spec.dot n n = 1) (u : Fin dim → K) : Spec.dot (Spec.tang n u) n = 0 := by
  unfold Spec.tang
  rw [dot_sub, dot_smul, hn, mul_one, sub_self]

/-- Pythagoras. -/
theorem dot_split {n : Fin dim → K} (hn : Spec.dot n n = 1) (u : Fin dim → K) :
    Spec.dot u u = Spec.dot u n ^ 2 + Spec.dot (Spec.tang n u) (Spec.tang n u) := by
  have h1 : Spec.dot u (Spec.tang n u) = Spec.dot u u - Spec.dot u n ^ 2 := by
    rw [dot_comm]; unfold Spec.tang; rw [dot_sub, dot_smul, dot_comm n u]; ring
  have h2 : Spec.dot (Spec.tang n u) (Spec.tang n u) = Spec.dot u (Spec.tang n u) := by
    conv_lhs => unfold Spec.tang
    rw [dot_sub, dot_smul]
    change _ - _ * Spec.dot n (Spec.tang n u) = _
    rw [dot_comm n, tang_dot hn]
    simp
    rfl
  rw [h2, h1]; ring

theorem dot_self_nonneg' {dim : ℕ} (u : Fin dim → ℝ) : 0 ≤ Spec.dot u u :=
  Finset.sum_nonneg fun _ _ => mul_self_nonneg _

end

/-! ### The node response -/

section
variable {dim : ℕ}

/-- Friction factor applied to the tangential velocity. -/
noncomputable def fricFactor (vt mu dv : ℝ) : ℝ :=
  1 - (if vt > 1 / 10 ^ 12 then min vt (mu * dv) else 0) / (vt + 1 / 10 ^ 12)

/-- Closed form of the collision response inside the obstacle. -/
theorem collideNode_inside (gap dist : ℝ) (v n w : Fin dim → ℝ) (mu dt : ℝ) (hn : Spec.dot n n = 1)
    (hd : dist ≤ 0) :
    collideNode Real.sqrt gap dist v n w mu dt = fun a => w a +
      (Spec.dot (fun b => v b - w b) n + max 0 (-Spec.dot (fun b => v b - w b) n)) * n a +
      Spec.tang n (fun b => v b - w b) a *
        fricFactor (Real.sqrt (Spec.dot (Spec.tang n fun b => v b - w b) (Spec.tang n fun b => v b - w b))) mu
          (max 0 (-Spec.dot (fun b => v b - w b) n)) := by
  unfold collideNode
  rw [if_pos (Or.inl hd)]
  unfold frictionalContact
  simp only [mul_zero, max_self, zero_sub]
  set u : Fin dim → ℝ := fun b => v b - w b with hu
  change (fun a => w a + dotv _ n * n a + _) = _
  set k := max 0 (-dotv u n) with hk
  have hk' : k = max 0 (-Spec.dot u n) := rfl
  have h1 : dotv (fun a => v a + k * n a - w a) n = Spec.dot u n + k := by
    have : (fun a => v a + k * n a - w a) = fun a => u a + k * n a := by
      funext a; simp only [hu]; ring
    rw [this]
    change Spec.dot _ n = _
    rw [dot_add, dot_smul, hn, mul_one]
  have h2 : (fun a => v a + k * n a - w a - dotv (fun a => v a + k * n a - w a) n * n a) =
      Spec.tang n u := by
    funext a
    rw [h1]
    simp only [Spec.tang, hu]; ring
  funext a
  have h2a := congrFun h2 a
  rw [h2a]
  simp only [h2]
  rw [h1]
  rfl

theorem fricFactor_mem {vt mu dv : ℝ} (hvt : 0 ≤ vt) (hmu : 0 ≤ mu) (hdv : 0 ≤ dv) :
    0 ≤ fricFactor vt mu dv ∧ fricFactor vt mu dv ≤ 1 ∧ vt * (1 - fricFactor vt mu dv) ≤ mu * dv := by
  unfold fricFactor
  have he : (0 : ℝ) < vt + 1 / 10 ^ 12 := by positivity
  set r := if vt > 1 / 10 ^ 12 then min vt (mu * dv) else 0 with hr
  have r0 : 0 ≤ r := by
    rw [hr]; split_ifs
    · exact le_min hvt (mul_nonneg hmu hdv)
    · exact le_rfl
  have r1 : r ≤ vt := by
    rw [hr]; split_ifs
    · exact min_le_left _ _
    · exact hvt
  have r2 : r ≤ mu * dv := by
    rw [hr]; split_ifs
    · exact min_le_right _ _
    · exact mul_nonneg hmu hdv
  have q0 : 0 ≤ r / (vt + 1 / 10 ^ 12) := div_nonneg r0 he.le
  have q1 : r / (vt + 1 / 10 ^ 12) ≤ 1 := by
    rw [div_le_one he]; have : (0 : ℝ) < 1 / 10 ^ 12 := by positivity
    linarith
  refine ⟨by linarith, by linarith, ?_⟩
  have : vt * (1 - (1 - r / (vt + 1 / 10 ^ 12))) = r * (vt / (vt + 1 / 10 ^ 12)) := by ring
  rw [this]
  have : vt / (vt + 1 / 10 ^ 12) ≤ 1 := by
    rw [div_le_one he]; have : (0 : ℝ) < 1 / 10 ^ 12 := by positivity
    linarith
  calc r * (vt / (vt + 1 / 10 ^ 12)) ≤ r * 1 := mul_le_mul_of_nonneg_left this r0
    _ ≤ mu * dv := by linarith

theorem max_zero_neg (x : ℝ) : x + max 0 (-x) = max x 0 := by
  rcases le_total 0 x with h | h
  · rw [max_eq_left (by linarith : (-x) ≤ 0), max_eq_left h, add_zero]
  · rw [max_eq_right (by linarith : 0 ≤ -x), max_eq_right h]; ring

/-- **C24**, one node: inside the obstacle the normal relative velocity after the collision is `max(v_n, 0)`, in
particular not negative, and a separating node is left exactly unchanged. -/
theorem contact_no_penetration (gap dist : ℝ) (v n w : Fin dim → ℝ) (mu dt : ℝ) (hn : Spec.dot n n = 1)
    (hd : dist ≤ 0) :
    Spec.dot (fun a => collideNode Real.sqrt gap dist v n w mu dt a - w a) n =
      max (Spec.dot (fun a => v a - w a) n) 0 ∧
    (0 ≤ Spec.dot (fun a => v a - w a) n → collideNode Real.sqrt gap dist v n w mu dt = v) := by
  rw [collideNode_inside gap dist v n w mu dt hn hd]
  set u : Fin dim → ℝ := fun b => v b - w b with hu
  constructor
  · simp only [max_zero_neg]
    have : ∀ f : ℝ, (fun a => w a + max (Spec.dot u n) 0 * n a + Spec.tang n u a * f - w a) =
        fun a => max (Spec.dot u n) 0 * n a + Spec.tang n u a * f := by
      intro f; funext a; ring
    rw [this, dot_add, dot_smul, dot_smul', hn, tang_dot hn]; ring
  · intro h
    rw [max_eq_left (by linarith : -Spec.dot u n ≤ 0)]
    have hf : fricFactor (Real.sqrt (Spec.dot (Spec.tang n u) (Spec.tang n u))) mu 0 = 1 := by
      unfold fricFactor
      rw [mul_zero, min_eq_right (Real.sqrt_nonneg _)]
      simp
    rw [hf]
    funext a
    simp only [Spec.tang, hu]; ring

/-- Closed form for a normal of any length. -/
theorem collideNode_general (gap dist : ℝ) (v n w : Fin dim → ℝ) (mu dt : ℝ) (hd : dist ≤ 0) (hmu : 0 ≤ mu) :
    let u := fun b => v b - w b
    let k := max 0 (-Spec.dot u n)
    let c := Spec.dot u n + k * Spec.dot n n
    ∃ f, 0 ≤ f ∧ f ≤ 1 ∧ (k = 0 → f = 1) ∧ collideNode Real.sqrt gap dist v n w mu dt =
      fun a => w a + c * n a + f * (u a + k * n a - c * n a) := by
  intro u k c
  have h1 : dotv (fun a => v a + k * n a - w a) n = c := by
    have : (fun a => v a + k * n a - w a) = fun a => u a + k * n a := by
      funext a; simp only [u]; ring
    rw [this]
    change Spec.dot _ n = _
    rw [dot_add, dot_smul]
  have hk : 0 ≤ k := le_max_left _ _
  let t : Fin dim → ℝ := fun a => v a + k * n a - w a - c * n a
  obtain ⟨f0, f1, -⟩ := fricFactor_mem (Real.sqrt_nonneg (dotv t t)) hmu hk
  refine ⟨fricFactor (Real.sqrt (dotv t t)) mu k, f0, f1, fun h0 => ?_, ?_⟩
  · unfold fricFactor
    rw [h0, mul_zero, min_eq_right (Real.sqrt_nonneg _)]
    simp
  · unfold collideNode
    rw [if_pos (Or.inl hd)]
    unfold frictionalContact
    simp only [mul_zero, max_self, zero_sub]
    change (fun a => w a + dotv (fun a => v a + k * n a - w a) n * n a + _) = _
    simp only [show dotv (fun a => v a - w a) n = Spec.dot u n from rfl]
    change (fun a => w a + dotv (fun a => v a + k * n a - w a) n * n a +
      (v a + k * n a - w a - dotv (fun a => v a + k * n a - w a) n * n a) * _) = _
    rw [h1]
    funext a
    change w a + c * n a + t a * fricFactor (Real.sqrt (dotv t t)) mu k = _
    simp only [t, u]; ring

/-- **C24**, one node, for the normals the package actually produces: automatic differentiation followed by division
by `|grad| + 1e-12` gives normals slightly shorter than one. The relative velocity into the wall
is then reduced to at most the fraction `1 - n·n` of what it was. -/
theorem contact_penetration_bound (gap dist : ℝ) (v n w : Fin dim → ℝ) (mu dt : ℝ) (hn : Spec.dot n n ≤ 1)
    (hd : dist ≤ 0) (hmu : 0 ≤ mu) :
    -((1 - Spec.dot n n) * |Spec.dot (fun a => v a - w a) n|) ≤
      Spec.dot (fun a => collideNode Real.sqrt gap dist v n w mu dt a - w a) n ∧
    (0 ≤ Spec.dot (fun a => v a - w a) n → collideNode Real.sqrt gap dist v n w mu dt = v) ∧
    Spec.dot (fun a => collideNode Real.sqrt gap dist v n w mu dt a - w a)
      (fun a => collideNode Real.sqrt gap dist v n w mu dt a - w a) ≤
      Spec.dot (fun a => v a - w a) (fun a => v a - w a) := by
  obtain ⟨f, f0, f1, fk, e⟩ := collideNode_general gap dist v n w mu dt hd hmu
  rw [e]
  set u : Fin dim → ℝ := fun b => v b - w b with hu
  set x := Spec.dot u n with hx
  set s := Spec.dot n n with hs
  have hs0 : 0 ≤ s := dot_self_nonneg' n
  set k := max 0 (-x) with hk
  have e2 : (fun a => w a + (x + k * s) * n a + f * (u a + k * n a - (x + k * s) * n a) - w a) =
      fun a => f * u a + ((1 - f) * (x + k * s) + f * k) * n a := by
    funext a; ring
  rw [e2]
  have e3 : Spec.dot (fun a => f * u a + ((1 - f) * (x + k * s) + f * k) * n a) n =
      f * x + ((1 - f) * (x + k * s) + f * k) * s := by
    rw [dot_add, dot_smul, dot_smul]
  have e4 : ∀ r : ℝ, Spec.dot (fun a => f * u a + r * n a) (fun a => f * u a + r * n a) =
      f * f * Spec.dot u u + 2 * f * r * x + r * r * s := by
    intro r
    rw [dot_add, dot_smul, dot_smul, dot_comm u, dot_comm n, dot_add, dot_add, dot_smul, dot_smul, dot_smul,
      dot_smul, dot_comm n u]
    ring
  rcases le_total 0 x with h | h
  · have k0 : k = 0 := by rw [hk]; exact max_eq_left (by linarith)
    have f1' := fk k0
    refine ⟨?_, fun _ => ?_, ?_⟩
    · rw [e3, abs_of_nonneg h, k0, f1']
      have := mul_nonneg (sub_nonneg.mpr hn) h
      linarith
    · rw [k0, f1']; funext a; simp only [hu]; ring
    · rw [e4, k0, f1']; apply le_of_eq; ring
  · have k0 : k = -x := by rw [hk]; exact max_eq_right (by linarith)
    refine ⟨?_, fun h' => ?_, ?_⟩
    · rw [e3, abs_of_nonpos h, k0]
      have : f * x + ((1 - f) * (x + -x * s) + f * -x) * s - -((1 - s) * -x) =
          (-x) * ((1 - s) * ((1 - f) * (1 - s))) := by ring
      have h3 : 0 ≤ (-x) * ((1 - s) * ((1 - f) * (1 - s))) :=
        mul_nonneg (by linarith) (mul_nonneg (by linarith) (mul_nonneg (by linarith) (by linarith)))
      linarith
    · have x0 : x = 0 := le_antisymm h h'
      have := fk (by rw [k0, x0, neg_zero])
      rw [this, k0, x0]
      funext a; simp only [hu]; ring
    · rw [e4, k0]
      have hU : x * x ≤ s * Spec.dot u u := by
        have := Finset.sum_mul_sq_le_sq_mul_sq Finset.univ u n
        simp only [Spec.dot, hx, hs]
        calc _ = (∑ a, u a * n a) ^ 2 := by ring
          _ ≤ (∑ a, u a ^ 2) * ∑ a, n a ^ 2 := this
          _ = _ := by simp only [sq]; ring
      have hUU := dot_self_nonneg' u
      set U := Spec.dot u u
      -- difference as a sum of non-negative terms
      have hxU : x * x ≤ U := by nlinarith
      have id : U - (f * f * U + 2 * f * ((1 - f) * (x + -x * s) + f * -x) * x +
          ((1 - f) * (x + -x * s) + f * -x) * ((1 - f) * (x + -x * s) + f * -x) * s) =
          (1 - f * f) * U - x * x * (2 * f * ((1 - f) * (1 - s) - f) +
            s * (((1 - f) * (1 - s) - f) * ((1 - f) * (1 - s) - f))) := by ring
      have key : 2 * f * ((1 - f) * (1 - s) - f) + s * (((1 - f) * (1 - s) - f) * ((1 - f) * (1 - s) - f)) ≤
          1 - f * f := by
        set A := (1 - f) * (1 - s) - f with hA
        have hB : f + A = (1 - f) * (1 - s) := by rw [hA]; ring
        have hB0 : 0 ≤ f + A := by rw [hB]; exact mul_nonneg (by linarith) (by linarith)
        have hB1 : f + A ≤ 1 := by
          rw [hB]; exact mul_le_one₀ (by linarith) (by linarith) (by linarith)
        have hB2 : (f + A) * (f + A) ≤ 1 := mul_le_one₀ hB1 hB0 hB1
        have hA2 : s * (A * A) ≤ A * A := mul_le_of_le_one_left (mul_self_nonneg A) hn
        have : (f + A) * (f + A) = f * f + 2 * f * A + A * A := by ring
        linarith
      have := mul_le_mul_of_nonneg_left key (mul_self_nonneg x)
      have h1f : 0 ≤ 1 - f * f := by nlinarith
      have := mul_le_mul_of_nonneg_left hxU h1f
      linarith

/-- With a normal of length 4/5 only. -/
example : -((1 - Spec.dot ![(0 : ℝ), 4 / 5] ![0, 4 / 5]) * |Spec.dot (fun a => ![(3 : ℝ), -1] a - ![0, 0] a) ![0, 4 / 5]|) ≤
    Spec.dot (fun a => collideNode Real.sqrt 0 (-1) ![3, -1] ![0, 4 / 5] ![0, 0] (1 / 2) 1 a - ![0, 0] a) ![0, 4 / 5] :=
  (contact_penetration_bound (dim := 2) 0 (-1) ![3, -1] ![0, 4 / 5] ![0, 0] (1 / 2) 1
    (by norm_num [Spec.dot, Fin.sum_univ_two]) (by norm_num) (by norm_num)).1

/-- **C25**, one node: Coulomb bound, no reversal of the tangential velocity, no gain of relative speed. -/
theorem contact_friction (gap dist : ℝ) (v n w : Fin dim → ℝ) (mu dt : ℝ) (hn : Spec.dot n n = 1)
    (hd : dist ≤ 0) (hmu : 0 ≤ mu) :
    let u := fun a => v a - w a
    let u' := fun a => collideNode Real.sqrt gap dist v n w mu dt a - w a
    (∃ f : ℝ, 0 ≤ f ∧ f ≤ 1 ∧ Spec.tang n u' = fun a => f * Spec.tang n u a) ∧
    Real.sqrt (Spec.dot (fun a => Spec.tang n u' a - Spec.tang n u a) fun a => Spec.tang n u' a - Spec.tang n u a)
      ≤ mu * |Spec.dot u' n - Spec.dot u n| ∧
    Spec.dot u' u' ≤ Spec.dot u u := by
  intro u u'
  have hnorm : Spec.dot u' n = max (Spec.dot u n) 0 :=
    (contact_no_penetration gap dist v n w mu dt hn hd).1
  set vt := Real.sqrt (Spec.dot (Spec.tang n u) (Spec.tang n u)) with hvt
  set dv := max 0 (-Spec.dot u n) with hdv
  have hdv0 : 0 ≤ dv := le_max_left _ _
  obtain ⟨f0, f1, f2⟩ := fricFactor_mem (Real.sqrt_nonneg _ : 0 ≤ vt) hmu hdv0
  set f := fricFactor vt mu dv with hf
  have ht : Spec.tang n u' = fun a => f * Spec.tang n u a := by
    have e : u' = fun a => max (Spec.dot u n) 0 * n a + Spec.tang n u a * f := by
      funext a
      change collideNode Real.sqrt gap dist v n w mu dt a - w a = _
      rw [collideNode_inside gap dist v n w mu dt hn hd]
      simp only [max_zero_neg]
      change w a + max (Spec.dot u n) 0 * n a + Spec.tang n u a * f - w a = _
      ring
    funext a
    conv_lhs => unfold Spec.tang
    rw [hnorm, e]; ring
  have hdiff : |Spec.dot u' n - Spec.dot u n| = dv := by
    rw [hnorm, ← max_zero_neg, add_sub_cancel_left, abs_of_nonneg hdv0]
  refine ⟨⟨f, f0, f1, ht⟩, ?_, ?_⟩
  · rw [hdiff, ht]
    have : (fun a => f * Spec.tang n u a - Spec.tang n u a) = fun a => (f - 1) * Spec.tang n u a := by
      funext a; ring
    simp only [this]
    rw [dot_smul, dot_comm, dot_smul, ← mul_assoc, Real.sqrt_mul (mul_self_nonneg _),
      Real.sqrt_mul_self_eq_abs, abs_sub_comm, abs_of_nonneg (by linarith)]
    linarith
  · rw [dot_split hn u', dot_split hn u, ht, hnorm, dot_smul, dot_comm (Spec.tang n u) (fun a => f * _), dot_smul]
    have hT := dot_self_nonneg' (Spec.tang n u)
    have a1 : max (Spec.dot u n) 0 ^ 2 ≤ Spec.dot u n ^ 2 := by
      rcases le_total 0 (Spec.dot u n) with h | h
      · rw [max_eq_left h]
      · rw [max_eq_right h, zero_pow two_ne_zero]; exact sq_nonneg _
    have a2 : f * (f * Spec.dot (Spec.tang n u) (Spec.tang n u)) ≤
        Spec.dot (Spec.tang n u) (Spec.tang n u) := by
      rw [← mul_assoc]
      have : f * f ≤ 1 := by nlinarith
      nlinarith
    linarith

/-- Material sliding with speed 3 into a floor with friction 1/2. -/
example : ∃ f : ℝ, 0 ≤ f ∧ f ≤ 1 ∧ Spec.tang ![0, 1]
      (fun a => collideNode Real.sqrt 0 (-1) ![3, -1] ![0, 1] ![0, 0] (1 / 2) 1 a - ![0, 0] a) =
    fun a => f * Spec.tang ![0, 1] (fun a => ![3, -1] a - ![0, 0] a) a :=
  (contact_friction (dim := 2) 0 (-1) ![3, -1] ![0, 1] ![0, 0] (1 / 2) 1 (by simp [Spec.dot, Fin.sum_univ_two]) (by norm_num)
    (by norm_num)).1

/-- **C67**: the `gap` setting, documented as a margin of safety, and the time step have no effect. -/
theorem collider_gap_ignored {K : Type*} [Field K] [LinearOrder K] (sqrt : K → K) (gap gap' dist : K)
    (v n w : Fin dim → K) (mu dt dt' : K) :
    collideNode sqrt gap dist v n w mu dt = collideNode sqrt gap' dist v n w mu dt' := by
  unfold collideNode frictionalContact
  simp only [mul_zero]

/-- **C67**: only the sign of the distance matters. -/
theorem collider_depth_ignored {K : Type*} [Field K] [LinearOrder K] (sqrt : K → K) (gap gap' dist dist' : K)
    (v n w : Fin dim → K) (mu dt dt' : K) (h : dist ≤ 0 ↔ dist' ≤ 0) :
    collideNode sqrt gap dist v n w mu dt = collideNode sqrt gap' dist' v n w mu dt' := by
  unfold collideNode frictionalContact
  simp only [mul_zero, h]

/-- Material a millimetre inside is treated as material a metre inside. -/
example : collideNode Real.sqrt (1 / 10000) (-1 / 1000) ![3, -1] ![0, 1] ![0, 0] (1 / 2) (1 / 100) =
    collideNode Real.sqrt 0 (-1) ![3, -1] ![0, 1] ![0, 0] (1 / 2) 1 :=
  collider_depth_ignored _ _ _ _ _ _ _ _ _ _ _ (by norm_num)

/-! ### The grid -/

/-- Post-collision nodal velocity. -/
noncomputable def Spec.nodeVelocity (g : GridArrays ℝ dim) (j : ℕ) : Fin dim → ℝ :=
  fun a => g.momentNt j a / g.mass j

theorem collideGrid_velocity (gap base dt : ℝ) (geo : Geom ℝ dim ℕ) (g : GridArrays ℝ dim) (j : ℕ)
    (hm : 1 / 10 ^ 14 < g.mass j) :
    Spec.nodeVelocity (collideGrid Real.sqrt gap base dt geo g) j =
      collideNode Real.sqrt gap (geo.dists j) (Spec.nodeVelocity g j) (geo.normals j) (geo.wallVels j)
        (base * geo.friction j) dt := by
  have h0 : 0 < g.mass j := lt_trans (by norm_num) hm
  funext a
  simp only [Spec.nodeVelocity, collideGrid]
  rw [if_pos hm, mul_div_cancel_right₀ _ h0.ne']
  simp only [mul_one_div]
  rfl

theorem collideGrid_mass (gap base dt : ℝ) (geo : Geom ℝ dim ℕ) (g : GridArrays ℝ dim) :
    (collideGrid Real.sqrt gap base dt geo g).mass = g.mass ∧
    (collideGrid Real.sqrt gap base dt geo g).moment = g.moment ∧
    (collideGrid Real.sqrt gap base dt geo g).force = g.force := ⟨rfl, rfl, rfl⟩

/-- Everything the collider does to one grid (C24, C25, C26 at the level of nodal momenta). -/
structure Collided (base : ℝ) (geo : Geom ℝ dim ℕ) (g g' : GridArrays ℝ dim) : Prop where
  same : g'.mass = g.mass ∧ g'.moment = g.moment ∧ g'.force = g.force
  noPenetration : ∀ j, 1 / 10 ^ 14 < g.mass j → geo.dists j ≤ 0 → Spec.dot (geo.normals j) (geo.normals j) = 1 →
    0 ≤ Spec.dot (fun a => Spec.nodeVelocity g' j a - geo.wallVels j a) (geo.normals j)
  almostNone : ∀ j, 1 / 10 ^ 14 < g.mass j → geo.dists j ≤ 0 → Spec.dot (geo.normals j) (geo.normals j) ≤ 1 →
    0 ≤ base * geo.friction j →
    -((1 - Spec.dot (geo.normals j) (geo.normals j)) *
        |Spec.dot (fun a => Spec.nodeVelocity g j a - geo.wallVels j a) (geo.normals j)|) ≤
      Spec.dot (fun a => Spec.nodeVelocity g' j a - geo.wallVels j a) (geo.normals j)
  separating : ∀ j, 1 / 10 ^ 14 < g.mass j → Spec.dot (geo.normals j) (geo.normals j) ≤ 1 →
    0 ≤ base * geo.friction j →
    0 ≤ Spec.dot (fun a => Spec.nodeVelocity g j a - geo.wallVels j a) (geo.normals j) →
    g'.momentNt j = g.momentNt j
  outside : ∀ j, 1 / 10 ^ 14 < g.mass j → 0 < geo.dists j → g'.momentNt j = g.momentNt j
  slower : ∀ j, 1 / 10 ^ 14 < g.mass j → Spec.dot (geo.normals j) (geo.normals j) ≤ 1 →
    0 ≤ base * geo.friction j →
    Spec.dot (fun a => Spec.nodeVelocity g' j a - geo.wallVels j a)
        (fun a => Spec.nodeVelocity g' j a - geo.wallVels j a) ≤
      Spec.dot (fun a => Spec.nodeVelocity g j a - geo.wallVels j a)
        (fun a => Spec.nodeVelocity g j a - geo.wallVels j a)
  coulomb : ∀ j, 1 / 10 ^ 14 < g.mass j → geo.dists j ≤ 0 → Spec.dot (geo.normals j) (geo.normals j) = 1 →
    0 ≤ base * geo.friction j →
    let u := fun a => Spec.nodeVelocity g j a - geo.wallVels j a
    let u' := fun a => Spec.nodeVelocity g' j a - geo.wallVels j a
    let n := geo.normals j
    (∃ f : ℝ, 0 ≤ f ∧ f ≤ 1 ∧ Spec.tang n u' = fun a => f * Spec.tang n u a) ∧
    Real.sqrt (Spec.dot (fun a => Spec.tang n u' a - Spec.tang n u a) fun a => Spec.tang n u' a - Spec.tang n u a)
      ≤ base * geo.friction j * |Spec.dot u' n - Spec.dot u n|

theorem momentNt_of_velocity {g g' : GridArrays ℝ dim} {j : ℕ} (hm : 0 < g.mass j) (hs : g'.mass = g.mass)
    (h : Spec.nodeVelocity g' j = Spec.nodeVelocity g j) : g'.momentNt j = g.momentNt j := by
  funext a
  have := congrFun h a
  simp only [Spec.nodeVelocity, hs] at this
  exact (div_left_inj' hm.ne').mp this

theorem collideNode_outside (gap dist : ℝ) (v n w : Fin dim → ℝ) (mu dt : ℝ) (hd : 0 < dist) :
    collideNode Real.sqrt gap dist v n w mu dt = v := by
  unfold collideNode
  simp only
  rw [if_neg]
  rintro (h | h)
  · linarith
  · linarith [h.1]

example : collideNode Real.sqrt (1 / 10000) (1 / 10) ![3, -1] ![0, 1] ![0, 0] (1 / 2) (1 / 100) = ![3, -1] :=
  collideNode_outside _ _ _ _ _ _ _ (by norm_num)

theorem collideGrid_collided (gap base dt : ℝ) (geo : Geom ℝ dim ℕ) (g : GridArrays ℝ dim) :
    Collided base geo g (collideGrid Real.sqrt gap base dt geo g) where
  same := ⟨rfl, rfl, rfl⟩
  noPenetration j hm hd hn := by
    rw [collideGrid_velocity gap base dt geo g j hm, (contact_no_penetration gap _ _ _ _ _ dt hn hd).1]
    exact le_max_right _ _
  almostNone j hm hd hn hmu := by
    rw [collideGrid_velocity gap base dt geo g j hm]
    exact (contact_penetration_bound gap _ _ _ _ _ dt hn hd hmu).1
  separating j hm hn hmu hs := by
    refine momentNt_of_velocity (g' := collideGrid Real.sqrt gap base dt geo g) (lt_trans (by norm_num) hm) rfl ?_
    rw [collideGrid_velocity gap base dt geo g j hm]
    rcases lt_or_ge 0 (geo.dists j) with hd | hd
    · exact collideNode_outside _ _ _ _ _ _ _ hd
    · exact (contact_penetration_bound gap _ _ _ _ _ dt hn hd hmu).2.1 hs
  outside j hm hd := by
    refine momentNt_of_velocity (g' := collideGrid Real.sqrt gap base dt geo g) (lt_trans (by norm_num) hm) rfl ?_
    rw [collideGrid_velocity gap base dt geo g j hm]
    exact collideNode_outside _ _ _ _ _ _ _ hd
  slower j hm hn hmu := by
    rw [collideGrid_velocity gap base dt geo g j hm]
    rcases lt_or_ge 0 (geo.dists j) with hd | hd
    · rw [collideNode_outside _ _ _ _ _ _ _ hd]
    · exact (contact_penetration_bound gap _ _ _ _ _ dt hn hd hmu).2.2
  coulomb j hm hd hn hmu := by
    rw [collideGrid_velocity gap base dt geo g j hm]
    exact ⟨(contact_friction gap _ _ _ _ _ dt hn hd hmu).1, (contact_friction gap _ _ _ _ _ dt hn hd hmu).2.1⟩

variable {z : Sz} {SS LS : Type*}

theorem foldl_collide (d : Fin z.D) (gap base dt : ℝ) (gs : List (Fin z.G)) (hgs : gs.Nodup)
    (x : Ctx z ℝ dim SS LS (ForceState ℝ dim)) :
    let x' := gs.foldl (fun x g =>
      x.setGrid g (collideGrid Real.sqrt gap base dt (x.cache.nodeGeoms g d) (x.cache.grids g))) x
    x'.world = x.world ∧ x'.mech = x.mech ∧ x'.cache.nodeGeoms = x.cache.nodeGeoms ∧
    ∀ g, x'.cache.grids g = if g ∈ gs then
      collideGrid Real.sqrt gap base dt (x.cache.nodeGeoms g d) (x.cache.grids g) else x.cache.grids g := by
  induction gs generalizing x with
  | nil => exact ⟨rfl, rfl, rfl, fun g => by simp⟩
  | cons g0 gs ih =>
    simp only [List.foldl_cons]
    obtain ⟨i1, i2, i3, i4⟩ := ih (List.nodup_cons.mp hgs).2
      (x.setGrid g0 (collideGrid Real.sqrt gap base dt (x.cache.nodeGeoms g0 d) (x.cache.grids g0)))
    refine ⟨i1, i2, i3, fun g => ?_⟩
    rw [i4 g]
    have hn : g0 ∉ gs := (List.nodup_cons.mp hgs).1
    by_cases hg : g = g0
    · subst hg
      rw [if_neg hn, if_pos (by simp)]
      simp [Ctx.setGrid]
    · have e1 : (x.setGrid g0 (collideGrid Real.sqrt gap base dt (x.cache.nodeGeoms g0 d)
          (x.cache.grids g0))).cache.grids g = x.cache.grids g := by
        simp [Ctx.setGrid, Function.update_of_ne hg]
      rw [e1]
      simp only [List.mem_cons, hg, false_or]
      rfl

/-- **C24, C25, C26** for the hook called by the solver: every listed grid is treated as described by `Collided`
with the obstacle's own geometry, every other grid and all bodies are untouched. -/
theorem sdf_collider_hook (d : Fin z.D) (gap base dt time : ℝ) (gs : List (Fin z.G)) (hgs : gs.Nodup)
    (x : Ctx z ℝ dim SS LS (ForceState ℝ dim)) :
    ∃ x', (sdfColliderForce realFns (some d) gs gap base).gridMoments x dt time = .ok x' ∧
      x'.world = x.world ∧ x'.mech = x.mech ∧
      (∀ g ∈ gs, Collided base (x.cache.nodeGeoms g d) (x.cache.grids g) (x'.cache.grids g)) ∧
      (∀ g, g ∉ gs → x'.cache.grids g = x.cache.grids g) := by
  obtain ⟨h1, h2, -, h4⟩ := foldl_collide d gap base dt gs hgs x
  refine ⟨_, rfl, h1, h2, fun g hg => ?_, fun g hg => ?_⟩
  · have := h4 g
    rw [if_pos hg] at this
    change Collided _ _ _ ((Ctx.cache (gs.foldl (fun x g => x.setGrid g (collideGrid Real.sqrt gap base dt
      (x.cache.nodeGeoms g d) (x.cache.grids g))) x)).grids g)
    exact this ▸ collideGrid_collided gap base dt _ _
  · have := h4 g
    rw [if_neg hg] at this
    exact this

/-- A floor at rest with normal `e_y` hit by a node moving at `(3, -1)` with friction 1/2: the normal velocity is
removed and the tangential one slowed by (almost exactly) 1/2. -/
example : Spec.dot (fun a => collideNode Real.sqrt (1 / 10000) (-(1 / 10)) ![3, -1] ![0, 1] ![0, 0] (1 / 2)
    (1 / 100) a - ![0, 0] a) ![0, 1] = 0 := by
  rw [(contact_no_penetration (dim := 2) _ (-(1 / 10)) ![3, -1] ![0, 1] ![0, 0] _ _
    (by simp [Spec.dot, Fin.sum_univ_two]) (by norm_num)).1]
  simp [Spec.dot, Fin.sum_univ_two]

end

/-! ### C28 -/

section
variable {K : Type*} [Field K] [LinearOrder K] [IsStrictOrderedRing K] {dim : ℕ}

theorem sgn_abs_le (v : K) : |sgn v| ≤ 1 := by
  unfold sgn; split_ifs <;> simp

theorem sgn_mul_nonneg (v : K) : 0 ≤ sgn v * v := by
  unfold sgn; split_ifs with h1 h2
  · linarith
  · simp [h2]
  · have : 0 ≤ v := not_lt.mp h1
    linarith

/-- **C28**, one component: no reversal, magnitude between `1-a` and `1+a` times, and the added force never does
positive work. -/
theorem damp_component (a f v : K) (h0 : 0 ≤ a) (h1 : a ≤ 1) :
    0 ≤ f * dampForce a f v ∧ (1 - a) * |f| ≤ |dampForce a f v| ∧ |dampForce a f v| ≤ (1 + a) * |f| ∧
      (dampForce a f v - f) * v ≤ 0 := by
  have hs := sgn_abs_le v
  have hv := sgn_mul_nonneg v
  unfold dampForce
  have hb : |a * |f| * sgn v| ≤ a * |f| := by
    rw [abs_mul, abs_of_nonneg (mul_nonneg h0 (abs_nonneg f))]
    exact mul_le_of_le_one_right (mul_nonneg h0 (abs_nonneg f)) hs
  have e : f + -a * |f| * sgn v = f - a * |f| * sgn v := by ring
  rw [e]
  refine ⟨?_, ?_, ?_, ?_⟩
  · have h2 : f * (a * |f| * sgn v) ≤ f * f := by
      calc f * (a * |f| * sgn v) ≤ |f * (a * |f| * sgn v)| := le_abs_self _
        _ = |f| * |a * |f| * sgn v| := abs_mul _ _
        _ ≤ |f| * (a * |f|) := mul_le_mul_of_nonneg_left hb (abs_nonneg f)
        _ = a * (|f| * |f|) := by ring
        _ = a * (f * f) := by rw [abs_mul_abs_self]
        _ ≤ f * f := by nlinarith [mul_self_nonneg f]
    linarith [mul_sub f f (a * |f| * sgn v)]
  · have := abs_sub_abs_le_abs_sub f (a * |f| * sgn v)
    linarith
  · have := abs_sub f (a * |f| * sgn v)
    linarith
  · have : (f - a * |f| * sgn v - f) * v = -(a * |f| * (sgn v * v)) := by ring
    rw [this]
    have := mul_nonneg (mul_nonneg h0 (abs_nonneg f)) hv
    linarith

example : 0 ≤ (4 : ℚ) * dampForce (1 / 2) 4 (-3) ∧ (dampForce (1 / 2) 4 (-3) - (4 : ℚ)) * -3 ≤ 0 :=
  ⟨(damp_component (1 / 2) 4 (-3) (by norm_num) (by norm_num)).1, (damp_component (1 / 2) 4 (-3) (by norm_num) (by norm_num)).2.2.2⟩

theorem sgn_div_pos {x m : K} (hm : 0 < m) : sgn (x / m) = sgn x := by
  unfold sgn
  have h1 : x / m < 0 ↔ x < 0 := by rw [div_lt_iff₀ hm, zero_mul]
  have h2 : x / m = 0 ↔ x = 0 := by rw [div_eq_zero_iff]; simp [hm.ne']
  simp only [h1, h2]

/-- **C28** on a grid: at every node of non-negative mass, the damping removes power from the nodal motion (per
component, with the nodal momentum), and changes nothing but the forces. -/
theorem damping_grid (a : K) (h0 : 0 ≤ a) (h1 : a ≤ 1) (g : GridArrays K dim) (j : ℕ) (hm : 0 ≤ g.mass j)
    (i : Fin dim) :
    0 ≤ g.force j i * (dampingGrid a g).force j i ∧
    (1 - a) * |g.force j i| ≤ |(dampingGrid a g).force j i| ∧
    |(dampingGrid a g).force j i| ≤ (1 + a) * |g.force j i| ∧
    ((dampingGrid a g).force j i - g.force j i) * g.moment j i ≤ 0 ∧
    (dampingGrid a g).mass = g.mass ∧ (dampingGrid a g).moment = g.moment ∧
    (dampingGrid a g).momentNt = g.momentNt := by
  have hpos : 0 < g.mass j + 1 / 10 ^ 22 := by positivity
  have e : (dampingGrid a g).force j i = dampForce a (g.force j i) (g.moment j i) := by
    simp only [dampingGrid, dampForce, sgn_div_pos hpos]
  obtain ⟨c1, c2, c3, c4⟩ := damp_component a (g.force j i) (g.moment j i) h0 h1
  rw [e]
  exact ⟨c1, c2, c3, c4, rfl, rfl, rfl⟩

example : ((dampingGrid (1 / 2) (⟨fun _ => 1, fun _ => ![3, -3], fun _ => ![3, -3], fun _ => ![4, 4]⟩ : GridArrays ℚ 2)).force 7 1 - 4)
    * -3 ≤ 0 :=
  (damping_grid (1 / 2) (by norm_num) (by norm_num) ⟨fun _ => 1, fun _ => ![3, -3], fun _ => ![3, -3], fun _ => ![4, 4]⟩ 7
    (by norm_num) 1).2.2.2.1

/-- **C28** on the points of a body. -/
theorem damping_body (a : K) (h0 : 0 ≤ a) (h1 : a ≤ 1) {n : ℕ} (s : MPState K dim n) (p : Fin n) (i : Fin dim) :
    0 ≤ s.force p i * (dampingBody a s).force p i ∧
    (1 - a) * |s.force p i| ≤ |(dampingBody a s).force p i| ∧
    |(dampingBody a s).force p i| ≤ (1 + a) * |s.force p i| ∧
    ((dampingBody a s).force p i - s.force p i) * s.velocity p i ≤ 0 :=
  damp_component a _ _ h0 h1

example (s : MPState ℚ 2 3) : ((dampingBody (1 / 2) s).force 1 0 - s.force 1 0) * s.velocity 1 0 ≤ 0 :=
  (damping_body (1 / 2) (by norm_num) (by norm_num) s 1 0).2.2.2

variable {z : Sz} {SS LS : Type*}

/-- Damping on particles does nothing at all in a solver call: the forces it scales have just been cleared. -/
theorem particle_damping_idle (a : K) {n : ℕ} (s : MPState K dim n) :
    dampingBody a (resetBody s) = resetBody s := by
  simp only [dampingBody, resetBody, dampForce, abs_zero, mul_zero, zero_mul, add_zero]

theorem mapGrids_grids (f : GridArrays K dim → GridArrays K dim) (gs : List (Fin z.G)) (hgs : gs.Nodup)
    (x : Ctx z K dim SS LS (ForceState K dim)) (g : Fin z.G) :
    (mapGrids f gs x).cache.grids g = if g ∈ gs then f (x.cache.grids g) else x.cache.grids g := by
  unfold mapGrids
  induction gs generalizing x with
  | nil => simp
  | cons g0 gs ih =>
    rw [List.foldl_cons, ih (List.nodup_cons.mp hgs).2]
    have hn : g0 ∉ gs := (List.nodup_cons.mp hgs).1
    by_cases hg : g = g0
    · subst hg
      rw [if_neg hn, if_pos (by simp)]
      simp [Ctx.setGrid]
    · simp [Ctx.setGrid, hg]

/-- What damping with coefficient `a` may do to a force component `f` of something moving with velocity `v`. -/
def Spec.Damped (a f v f' : K) : Prop :=
  0 ≤ f * f' ∧ (1 - a) * |f| ≤ |f'| ∧ |f'| ≤ (1 + a) * |f| ∧ (f' - f) * v ≤ 0 ∧ (0 < f * v → f' = (1 - a) * f) ∧
    (f * v < 0 → f' = (1 + a) * f)

theorem dampForce_damped (a f v : K) (h0 : 0 ≤ a) (h1 : a ≤ 1) : Spec.Damped a f v (dampForce a f v) := by
  obtain ⟨c1, c2, c3, c4⟩ := damp_component a f v h0 h1
  refine ⟨c1, c2, c3, c4, fun h => ?_, fun h => ?_⟩ <;> unfold dampForce sgn
  · rcases pos_and_pos_or_neg_and_neg_of_mul_pos h with ⟨hf, hv⟩ | ⟨hf, hv⟩
    · rw [if_neg (not_lt.mpr hv.le), if_neg hv.ne', abs_of_pos hf]; ring
    · rw [if_pos hv, abs_of_neg hf]; ring
  · rcases mul_neg_iff.mp h with ⟨hf, hv⟩ | ⟨hf, hv⟩
    · rw [if_pos hv, abs_of_pos hf]; ring
    · rw [if_neg (not_lt.mpr hv.le), if_neg hv.ne', abs_of_neg hf]; ring

/-- **C28** for the hook called by the solver on grids: with the coefficient found in the state of this force, the force at
every node of non-negative mass of every listed grid is damped against the nodal momentum, component by component; masses,
momenta, other grids, bodies and mechanics are untouched. -/
theorem damping_grid_hook [FloorRing K] (ps : List (Fin z.P)) (gs : List (Fin z.G)) (hgs : gs.Nodup) (fIdx : ℕ) (a dt time : K)
    (h0 : 0 ≤ a) (h1 : a ≤ 1) (x : Ctx z K dim SS LS (ForceState K dim)) (hf : x.mech.forces[fIdx]? = some (.damping a)) :
    ∃ x', (dampingForce true ps gs fIdx).gridForces x dt time = .ok x' ∧ x'.world = x.world ∧ x'.mech = x.mech ∧
      (∀ g ∈ gs, (x'.cache.grids g).mass = (x.cache.grids g).mass ∧ (x'.cache.grids g).moment = (x.cache.grids g).moment ∧
        (x'.cache.grids g).momentNt = (x.cache.grids g).momentNt ∧
        ∀ j, 0 ≤ (x.cache.grids g).mass j → ∀ i, Spec.Damped a ((x.cache.grids g).force j i) ((x.cache.grids g).moment j i)
          ((x'.cache.grids g).force j i)) ∧
      (∀ g, g ∉ gs → x'.cache.grids g = x.cache.grids g) := by
  refine ⟨mapGrids (dampingGrid a) gs x, ?_, (mapGrids_world _ _ _).1, (mapGrids_world _ _ _).2.1, fun g hg => ?_,
    fun g hg => by rw [mapGrids_grids _ _ hgs, if_neg hg]⟩
  · simp [dampingForce, getDamping, hf, andThen]
  · rw [mapGrids_grids _ _ hgs, if_pos hg]
    refine ⟨rfl, rfl, rfl, fun j hm i => ?_⟩
    have hpos : 0 < (x.cache.grids g).mass j + 1 / 10 ^ 22 := by positivity
    have e : (dampingGrid a (x.cache.grids g)).force j i =
        dampForce a ((x.cache.grids g).force j i) ((x.cache.grids g).moment j i) := by
      simp only [dampingGrid, dampForce, sgn_div_pos hpos]
    rw [e]
    exact dampForce_damped a _ _ h0 h1

/-- **C28** for the hook called by the solver on points: the force on every point of every listed deformable body is damped
against its velocity and nothing else about the body changes; other bodies, the grids and the mechanics are untouched. -/
theorem damping_body_hook (ps : List (Fin z.P)) (hps : ps.Nodup) (gs : List (Fin z.G)) (fIdx : ℕ) (a dt time : K)
    (h0 : 0 ≤ a) (h1 : a ≤ 1) (x x' : Ctx z K dim SS LS (ForceState K dim)) (hf : x.mech.forces[fIdx]? = some (.damping a))
    (hx : (dampingForce false ps gs fIdx).preP2g x dt time = .ok x') :
    x'.mech = x.mech ∧ x'.cache = x.cache ∧
      (∀ p ∈ ps, ∃ s s', x.world.bodies p = .deformable s ∧ x'.world.bodies p = .deformable s' ∧
        s' = { s with force := s'.force } ∧ ∀ q i, Spec.Damped a (s.force q i) (s.velocity q i) (s'.force q i)) ∧
      (∀ p, p ∉ ps → x'.world.bodies p = x.world.bodies p) := by
  obtain ⟨f, hfd, hfr, hx'⟩ : ∃ f : Ctx z K dim SS LS (ForceState K dim) → Fin z.P → Except PyErr _,
      (∀ x p s, x.world.bodies p = .deformable s → f x p = .ok (x.setBody p (.deformable (dampingBody a s)))) ∧
      (∀ x p s, x.world.bodies p = .rigid s → f x p = .error .attributeError) ∧ foldE f x ps = .ok x' := by
    have e : getDamping x.mech.forces fIdx = .ok a := by simp [getDamping, hf]
    have := hx
    simp only [dampingForce, e, andThen, Bool.false_eq_true, if_false] at this
    exact ⟨_, fun x p s h => by simp only [h], fun x p s h => by simp only [h], this⟩
  clear hx hf
  induction ps generalizing x with
  | nil =>
    obtain rfl : x = x' := by simpa [foldE] using hx'
    simp
  | cons p0 ps ih =>
    obtain ⟨x1, e1, e2⟩ := foldE_cons_ok.mp hx'
    have hn : p0 ∉ ps := (List.nodup_cons.mp hps).1
    obtain ⟨i1, i2, i3, i4⟩ := ih (List.nodup_cons.mp hps).2 x1 e2
    cases hb : x.world.bodies p0 with
    | rigid r => simp [hfr _ _ _ hb] at e1
    | deformable s0 =>
      simp only [hfd _ _ _ hb, Except.ok.injEq] at e1
      subst e1
      refine ⟨i1, i2, fun p hp => ?_, fun p hp => ?_⟩
      · by_cases hpp : p = p0
        · subst hpp
          refine ⟨s0, dampingBody a s0, hb, ?_, rfl, fun q i => dampForce_damped a _ _ h0 h1⟩
          rw [i4 _ hn]
          simp [Ctx.setBody, World.setBody]
        · obtain ⟨s, s', q1, q2, q3, q4⟩ := i3 p ((List.mem_cons.mp hp).resolve_left hpp)
          refine ⟨s, s', ?_, q2, q3, q4⟩
          rw [← q1]
          simp [Ctx.setBody, World.setBody, hpp]
      · have hpp : p ≠ p0 := fun h => hp (h ▸ List.mem_cons_self)
        rw [i4 p fun h => hp (List.mem_cons_of_mem _ h)]
        simp [Ctx.setBody, World.setBody, hpp]

/-- Half damping of a grid whose nodes have mass 1, momentum `(3, -3)` and force `(4, 4)`: the force becomes `(2, 6)`. -/
example (c : Cache exSz ℚ 2) (hc : c.grids = fun _ => ⟨fun _ => 1, fun _ => ![3, -3], fun _ => ![3, -3], fun _ => ![4, 4]⟩) :
    ∃ x', (dampingForce true [] [(0 : Fin 1)] 0).gridForces
        (⟨exState.world, { exState.mech with forces := [.damping (1 / 2)] }, c⟩ : Ctx exSz ℚ 2 Unit (LawState ℚ) _)
        (1 / 100) 0 = .ok x' ∧ (x'.cache.grids 0).force 7 0 = 2 ∧ (x'.cache.grids 0).force 7 1 = 6 := by
  obtain ⟨x', h1, -, -, h2, -⟩ := damping_grid_hook [] [(0 : Fin 1)] (by simp) 0 (1 / 2 : ℚ) (1 / 100) 0 (by norm_num)
    (by norm_num) (⟨exState.world, { exState.mech with forces := [.damping (1 / 2)] }, c⟩ : Ctx exSz ℚ 2 Unit (LawState ℚ) _)
    rfl
  obtain ⟨-, -, -, h3⟩ := h2 0 (by simp)
  refine ⟨x', h1, ?_, ?_⟩
  · rw [(h3 7 (by simp [hc]) 0).2.2.2.2.1 (by simp [hc])]; norm_num [hc]
  · rw [(h3 7 (by simp [hc]) 1).2.2.2.2.2 (by simp [hc])]; norm_num [hc]

/-- Half damping of a force of 4 along and against the motion. -/
example : dampForce (1 / 2 : ℚ) 4 3 = 2 ∧ dampForce (1 / 2 : ℚ) 4 (-3) = 6 := by
  constructor <;> norm_num [dampForce, sgn]

/-! ### C29 -/

/-- **C29** (partial): the response of two deformable bodies at a node. The impulses are equal and opposite up to the
regularisation 1e-12: the change of the total momentum is exactly the sum below, which vanishes with 1e-12.
The receiver no longer approaches the actor's old velocity. A separating or distant pair is left
unchanged. Missing: exact conservation (false, `contact_momentum_fails`); and in the package the response
is unreachable (`grid_contact_never_runs`). -/
theorem contact_momentum_partial (mR mA : K) (pR pA n : Fin dim → K) (dist : K) (hR : 0 < mR) (hA : 0 < mA)
    (hn : Spec.dot n n = 1) :
    let vR := fun a => pR a / (mR + 1 / 10 ^ 12)
    let vA := fun a => pA a / (mA + 1 / 10 ^ 12)
    let vn := Spec.dot (fun a => vR a - vA a) n
    let r := solveNodeCollision false pR mR pA mA n dist
    ((1 / 10 ^ 6 < dist ∨ 0 ≤ vn) → r = (pR, pA)) ∧
    (dist ≤ 1 / 10 ^ 6 → vn < 0 →
      (∀ a, r.1 a + r.2 a = pR a + pA a - 1 / 10 ^ 12 * (vR a + vA a + vn * n a * mR / (mA + 1 / 10 ^ 12))) ∧
      Spec.dot (fun a => r.1 a / mR - vA a) n = 0) := by
  intro vR vA vn r
  have hvn : dotv (fun a => vR a - vA a) n = vn := rfl
  constructor
  · intro h
    change solveNodeCollision false pR mR pA mA n dist = _
    unfold solveNodeCollision
    simp only
    rcases h with h | h
    · rw [if_neg (not_le.mpr h)]
    · rw [if_neg (c := dotv _ n < 0) (not_lt.mpr h), ite_self]
  · intro hd hv
    have hr : r = (fun a => (vR a - vn * n a) * mR,
        fun a => (vA a + vn * n a * (mR / (mA + 1 / 10 ^ 12))) * mA) := by
      change solveNodeCollision false pR mR pA mA n dist = _
      unfold solveNodeCollision
      simp only
      rw [if_pos hd, if_pos (c := dotv _ n < 0) hv, if_neg (by decide)]
      rfl
    have hR' : mR + 1 / 10 ^ 12 ≠ 0 := by positivity
    have hA' : mA + 1 / 10 ^ 12 ≠ 0 := by positivity
    have eR : ∀ a, pR a = vR a * (mR + 1 / 10 ^ 12) := fun a => (div_mul_cancel₀ _ hR').symm
    have eA : ∀ a, pA a = vA a * (mA + 1 / 10 ^ 12) := fun a => (div_mul_cancel₀ _ hA').symm
    constructor
    · intro a
      rw [hr, eR a, eA a]
      have h3 : mR / (mA + 1 / 10 ^ 12) * mA = mR - 1 / 10 ^ 12 * (mR / (mA + 1 / 10 ^ 12)) := by
        field_simp
        ring
      linear_combination (vn * n a) * h3
    · rw [hr]
      simp only
      have : (fun a => (vR a - vn * n a) * mR / mR - vA a) = fun a => (vR a - vA a) - vn * n a := by
        funext a
        rw [mul_div_cancel_right₀ _ hR.ne']; ring
      rw [this, dot_sub, dot_smul, hn, mul_one]
      exact sub_self _

/-- Masses 2 and 3 approaching each other. -/
example : Spec.dot (fun a => (solveNodeCollision false ![(0 : ℚ), -4] 2 ![0, 3] 3 ![0, 1] 0).1 a / 2 -
    ![(0 : ℚ), 3] a / (3 + 1 / 10 ^ 12)) ![0, 1] = 0 :=
  ((contact_momentum_partial (2 : ℚ) 3 ![0, -4] ![0, 3] ![0, 1] 0 (by norm_num) (by norm_num) (by decide +kernel)).2 (by norm_num)
    (by decide +kernel)).2

/-- **C29** refuted as an exact law: unit masses at unit approach speed lose total momentum. -/
theorem contact_momentum_fails :
    (solveNodeCollision false ![(-1 : ℚ), 0] 1 ![0, 0] 1 ![1, 0] 0).1 0 +
    (solveNodeCollision false ![(-1 : ℚ), 0] 1 ![0, 0] 1 ![1, 0] 0).2 0 ≠ -1 + 0 := by
  have h : dotv (dim := 2) (fun a => ![(-1 : ℚ), 0] a / (1 + 1 / 10 ^ 12) - ![(0 : ℚ), 0] a / (1 + 1 / 10 ^ 12))
      ![1, 0] = -1 / (1 + 1 / 10 ^ 12) := by
    simp [dotv, Fin.sum_univ_two]
  unfold solveNodeCollision
  simp only
  rw [if_pos (by norm_num), h, if_pos (by norm_num), if_neg (by decide)]
  norm_num

/-- With a rigid actor momentum is not exchanged at all: the actor keeps its (regularised) momentum. -/
theorem contact_rigid_actor (mR mA : K) (pR pA n : Fin dim → K) (dist : K) (a : Fin dim) :
    (solveNodeCollision true pR mR pA mA n dist).2 a = pA a ∨
    (solveNodeCollision true pR mR pA mA n dist).2 a = pA a / (mA + 1 / 10 ^ 12) * mA := by
  unfold solveNodeCollision
  simp only
  split_ifs
  · exact Or.inr rfl
  · exact Or.inl rfl
  · exact Or.inl rfl

end

section
variable {z : Sz} {K : Type*} [Field K] [LinearOrder K] [IsStrictOrderedRing K] [FloorRing K] {dim : ℕ}
  {SS LS : Type*}

theorem foldE_error_mem {σ α : Type*} {f : σ → α → Except PyErr σ} (l : List α) (a : α) (ha : a ∈ l)
    (h : ∀ s s', f s a ≠ .ok s') (s s' : σ) : foldE f s l ≠ .ok s' := by
  induction l generalizing s with
  | nil => simp at ha
  | cons b l ih =>
    intro he
    obtain ⟨s1, h1, h2⟩ := foldE_cons_ok.mp he
    rcases List.mem_cons.mp ha with rfl | hm
    · exact h _ _ h1
    · exact ih hm _ h2

/-- **C29** refuted in the solver: a scene with a grid-contact force can never complete a step. -/
theorem grid_contact_never_runs (fn : MathFns K) (sv : Solver z K dim SS LS (ForceState K dim))
    (hc : gridContactForce ∈ sv.forces) (st st' : SimState z K dim SS LS (ForceState K dim)) :
    uslCall fn sv st ≠ .ok st' := by
  intro h
  unfold uslCall callWith at h
  obtain ⟨wm, -, h⟩ := andThen_ok.mp h
  obtain ⟨x1, -, h⟩ := andThen_ok.mp h
  obtain ⟨x2, h2, -⟩ := andThen_ok.mp h
  unfold integrateGrid at h2
  obtain ⟨y1, -, h2⟩ := andThen_ok.mp h2
  obtain ⟨y2, -, h2⟩ := andThen_ok.mp h2
  refine foldE_error_mem sv.forces gridContactForce hc ?_ _ _ h2
  intro s s' hh
  exact absurd hh (by simp [gridContactForce])

end
end Hydrax
