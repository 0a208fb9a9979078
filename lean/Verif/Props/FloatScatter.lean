import Verif.Model.FloatScatter
import Verif.Props.Rounding

/-!
# The order of the additions in the scatter (C122)
-/

namespace Hydrax
open Spec

/-- Every result is off by at most the fraction `u` of itself. -/
def Spec.RelRound (u : ℚ) (rnd : ℚ → ℚ) : Prop := ∀ q, |rnd q - q| ≤ u * |q|

/-- Rounding to `p` significant bits (`p = 24` by default, 53 with `jax_enable_x64`). -/
theorem rndBits_relRound (p : ℕ) : RelRound (1 / 2 ^ p) (rndBits p) := fun q => by
  rw [one_div_mul_eq_div]; exact rndBits_err p q

section
variable {u : ℚ} {rnd : ℚ → ℚ}

theorem relRound_abs_le (h : RelRound u rnd) (q : ℚ) : |rnd q| ≤ (1 + u) * |q| := by
  have h1 := h q
  have h2 : |rnd q| ≤ |rnd q - q| + |q| := by
    calc |rnd q| = |(rnd q - q) + q| := by rw [sub_add_cancel]
      _ ≤ _ := abs_add_le _ _
  linarith

theorem relRound_le (h : RelRound u rnd) {q : ℚ} (hq : 0 ≤ q) : rnd q ≤ (1 + u) * q := by
  have := (abs_le.mp (h q)).2
  rw [abs_of_nonneg hq] at this
  linarith

theorem relRound_ge (h : RelRound u rnd) {q : ℚ} (hq : 0 ≤ q) : (1 - u) * q ≤ rnd q := by
  have := (abs_le.mp (h q)).1
  rw [abs_of_nonneg hq] at this
  linarith

theorem relRound_nonneg_of (h : RelRound u rnd) : 0 ≤ u := by
  have := (abs_nonneg _).trans (h 1)
  simpa using this

/-! ### Trees of additions -/

namespace SumTree
variable {ι : Type*}

/-- The sum without rounding. -/
def total (f : ι → ℚ) (t : SumTree ι) : ℚ := (t.leaves.map f).sum

theorem total_leaf (f : ι → ℚ) (i : ι) : (leaf i).total f = f i := by simp [total, leaves]

theorem total_add (f : ι → ℚ) (l r : SumTree ι) : (add l r).total f = l.total f + r.total f := by
  simp [total, leaves]

theorem total_nonneg {f : ι → ℚ} (hf : ∀ i, 0 ≤ f i) (t : SumTree ι) : 0 ≤ t.total f :=
  List.sum_nonneg fun x hx => by obtain ⟨i, -, rfl⟩ := List.mem_map.mp hx; exact hf i

theorem abs_total_le (f : ι → ℚ) : ∀ t : SumTree ι, |t.total f| ≤ t.total fun i => |f i|
  | leaf i => by simp [total_leaf]
  | add l r => by
    rw [total_add, total_add]
    exact (abs_add_le _ _).trans (add_le_add (abs_total_le f l) (abs_total_le f r))

theorem length_pos : ∀ t : SumTree ι, 0 < t.leaves.length
  | leaf _ => by simp [leaves]
  | add l r => by simp only [leaves, List.length_append]; have := length_pos l; omega

/-- No value goes through more additions than there are other values. -/
theorem depth_lt : ∀ t : SumTree ι, t.depth < t.leaves.length
  | leaf _ => by simp [depth, leaves]
  | add l r => by
    simp only [depth, leaves, List.length_append]
    have h1 := depth_lt l
    have h2 := depth_lt r
    have h3 := length_pos l
    have h4 := length_pos r
    omega

/-- Terms of one sign: the rounded sum is off by a factor of at most `(1 ± u)` per addition. -/
theorem eval_bounds (h : RelRound u rnd) (hu : u ≤ 1) {f : ι → ℚ} (hf : ∀ i, 0 ≤ f i) : ∀ t : SumTree ι,
    (1 - u) ^ t.depth * t.total f ≤ t.eval rnd f ∧ t.eval rnd f ≤ (1 + u) ^ t.depth * t.total f
  | leaf i => by simp [total_leaf, depth, eval]
  | add l r => by
    have hu0 := relRound_nonneg_of h
    obtain ⟨l1, l2⟩ := eval_bounds h hu hf l
    obtain ⟨r1, r2⟩ := eval_bounds h hu hf r
    have tl := total_nonneg hf l
    have tr := total_nonneg hf r
    have a0 : (0 : ℚ) ≤ 1 - u := by linarith
    have dl : (1 - u) ^ max l.depth r.depth ≤ (1 - u) ^ l.depth := pow_le_pow_of_le_one a0 (by linarith) (le_max_left _ _)
    have dr : (1 - u) ^ max l.depth r.depth ≤ (1 - u) ^ r.depth := pow_le_pow_of_le_one a0 (by linarith) (le_max_right _ _)
    have ul : (1 + u) ^ l.depth ≤ (1 + u) ^ max l.depth r.depth := pow_le_pow_right₀ (by linarith) (le_max_left _ _)
    have ur : (1 + u) ^ r.depth ≤ (1 + u) ^ max l.depth r.depth := pow_le_pow_right₀ (by linarith) (le_max_right _ _)
    have el : 0 ≤ l.eval rnd f := le_trans (mul_nonneg (pow_nonneg a0 _) tl) l1
    have er : 0 ≤ r.eval rnd f := le_trans (mul_nonneg (pow_nonneg a0 _) tr) r1
    simp only [total_add, depth, eval]
    constructor
    · refine le_trans ?_ (relRound_ge h (add_nonneg el er))
      rw [pow_succ', mul_assoc]
      refine mul_le_mul_of_nonneg_left ?_ a0
      have := mul_le_mul_of_nonneg_right dl tl
      have := mul_le_mul_of_nonneg_right dr tr
      rw [mul_add]
      linarith
    · refine le_trans (relRound_le h (add_nonneg el er)) ?_
      rw [pow_succ', mul_assoc]
      refine mul_le_mul_of_nonneg_left ?_ (by linarith)
      have := mul_le_mul_of_nonneg_right ul tl
      have := mul_le_mul_of_nonneg_right ur tr
      rw [mul_add]
      linarith

/-- Terms of any sign: the error is small compared with the sum of the sizes of the terms. -/
theorem eval_err (h : RelRound u rnd) (f : ι → ℚ) : ∀ t : SumTree ι,
    |t.eval rnd f - t.total f| ≤ ((1 + u) ^ t.depth - 1) * t.total (fun i => |f i|)
  | leaf i => by simp [total_leaf, depth, eval]
  | add l r => by
    have hu0 := relRound_nonneg_of h
    have il := eval_err h f l
    have ir := eval_err h f r
    have tl := total_nonneg (f := fun i => |f i|) (fun i => abs_nonneg _) l
    have tr := total_nonneg (f := fun i => |f i|) (fun i => abs_nonneg _) r
    have al := abs_total_le f l
    have ar := abs_total_le f r
    have ul : (1 + u) ^ l.depth ≤ (1 + u) ^ max l.depth r.depth := pow_le_pow_right₀ (by linarith) (le_max_left _ _)
    have ur : (1 + u) ^ r.depth ≤ (1 + u) ^ max l.depth r.depth := pow_le_pow_right₀ (by linarith) (le_max_right _ _)
    have il' := il.trans (mul_le_mul_of_nonneg_right (sub_le_sub_right ul 1) tl)
    have ir' := ir.trans (mul_le_mul_of_nonneg_right (sub_le_sub_right ur 1) tr)
    simp only [total_add, depth, eval]
    set P := (1 + u) ^ max l.depth r.depth with hP
    set A := l.eval rnd f + r.eval rnd f with hA
    set T := l.total f + r.total f with hT
    set S := l.total (fun i => |f i|) + r.total (fun i => |f i|) with hS
    have e1 : |A - T| ≤ (P - 1) * S := by
      calc |A - T| = |(l.eval rnd f - l.total f) + (r.eval rnd f - r.total f)| := by congr 1; rw [hA, hT]; ring
        _ ≤ _ := abs_add_le _ _
        _ ≤ (P - 1) * S := by rw [hS, mul_add]; linarith
    have e2 : |T| ≤ S := (abs_add_le _ _).trans (add_le_add al ar)
    have e3 : |A| ≤ P * S := by
      calc |A| = |(A - T) + T| := by rw [sub_add_cancel]
        _ ≤ |A - T| + |T| := abs_add_le _ _
        _ ≤ _ := by linarith
    calc |rnd A - T| = |(rnd A - A) + (A - T)| := by rw [sub_add_sub_cancel]
      _ ≤ |rnd A - A| + |A - T| := abs_add_le _ _
      _ ≤ u * (P * S) + (P - 1) * S := add_le_add ((h A).trans (mul_le_mul_of_nonneg_left e3 hu0)) e1
      _ = ((1 + u) ^ (max l.depth r.depth + 1) - 1) * S := by rw [pow_succ, ← hP]; ring

theorem total_perm (f : ι → ℚ) {t : SumTree ι} {l : List ι} (h : t.leaves.Perm l) : t.total f = (l.map f).sum :=
  (h.map f).sum_eq

end SumTree

/-! ### At a node -/

/-- Number of contributions to a node. -/
def Spec.hits {m : ℕ} (target : Fin m → ℕ) (j : ℕ) : ℕ := ((List.finRange m).filter fun i => target i = j).length

theorem SumsTo.depth_le {m : ℕ} {target : Fin m → ℕ} {j : ℕ} {t : SumTree (Option (Fin m))} (h : SumsTo target j t) :
    t.depth ≤ hits target j := by
  have h1 := t.depth_lt
  rw [h.length_eq] at h1
  simp only [List.length_cons, List.length_map] at h1
  unfold hits
  omega

theorem SumsTo.total {m : ℕ} {target : Fin m → ℕ} {j : ℕ} {t : SumTree (Option (Fin m))} (h : SumsTo target j t) (init : ℚ)
    (val : Fin m → ℚ) : t.total (fun o => o.elim init val) = init + scatterAdd target val j := by
  rw [SumTree.total_perm _ h, List.map_cons, List.sum_cons, List.map_map]
  congr 1
  show (((List.finRange m).filter fun i => target i = j).map val).sum = _
  unfold scatterAdd
  rw [Fin.sum_univ_def]
  generalize List.finRange m = l
  induction l with
  | nil => rfl
  | cons i l ih =>
    by_cases hi : target i = j
    · simp [hi, ih]
    · simp [hi, ih]

/-- **C122.** Nodal mass, summed in any order: off by at most a factor `(1 ± u)` per contribution and two more for its products. `u` is
`2^-24` by default. -/
theorem mass_scatter_faithful {n w : ℕ} (h : RelRound u rnd) (hu : u ≤ 1) (c : InteractionCache ℚ n w) (m : Fin n → ℚ)
    (hv : ∀ i, 0 ≤ c.shapeVal i) (hk : ∀ i, 0 ≤ c.cpicMask i) (hm : ∀ q, 0 ≤ m q) (j : ℕ) {t : SumTree (Option (Fin (n * w)))}
    (ht : SumsTo c.nodeHash j t) :
    let exact := ∑ i, if c.nodeHash i = j then c.shapeVal i * c.cpicMask i * m (c.pointId i) else 0
    let k := hits c.nodeHash j
    (1 - u) ^ (k + 2) * exact ≤ scatterRounded rnd 0 (wMassRounded rnd c m) t ∧
    scatterRounded rnd 0 (wMassRounded rnd c m) t ≤ (1 + u) ^ (k + 2) * exact := by
  intro ex k
  have hu0 := relRound_nonneg_of h
  have a0 : (0 : ℚ) ≤ 1 - u := by linarith
  have hterm : ∀ i, 0 ≤ c.shapeVal i * c.cpicMask i * m (c.pointId i) := fun i => mul_nonneg (mul_nonneg (hv i) (hk i)) (hm _)
  have w1 : ∀ i, 0 ≤ rnd (c.shapeVal i * c.cpicMask i) := fun i =>
    le_trans (mul_nonneg a0 (mul_nonneg (hv i) (hk i))) (relRound_ge h (mul_nonneg (hv i) (hk i)))
  have lo : ∀ i, (1 - u) ^ 2 * (c.shapeVal i * c.cpicMask i * m (c.pointId i)) ≤ wMassRounded rnd c m i := fun i => by
    refine le_trans ?_ (relRound_ge h (mul_nonneg (w1 i) (hm _)))
    rw [pow_two, mul_assoc]
    refine mul_le_mul_of_nonneg_left ?_ a0
    rw [← mul_assoc]
    exact mul_le_mul_of_nonneg_right (relRound_ge h (mul_nonneg (hv i) (hk i))) (hm _)
  have hi : ∀ i, wMassRounded rnd c m i ≤ (1 + u) ^ 2 * (c.shapeVal i * c.cpicMask i * m (c.pointId i)) := fun i => by
    refine le_trans (relRound_le h (mul_nonneg (w1 i) (hm _))) ?_
    rw [pow_two, mul_assoc]
    refine mul_le_mul_of_nonneg_left ?_ (by linarith)
    rw [← mul_assoc]
    exact mul_le_mul_of_nonneg_right (relRound_le h (mul_nonneg (hv i) (hk i))) (hm _)
  have w0 : ∀ i, 0 ≤ wMassRounded rnd c m i := fun i => le_trans (mul_nonneg (pow_nonneg a0 _) (hterm i)) (lo i)
  obtain ⟨b1, b2⟩ := SumTree.eval_bounds (f := fun o : Option (Fin (n * w)) => o.elim 0 (wMassRounded rnd c m)) h hu
    (fun o => by cases o with | none => exact le_rfl | some i => exact w0 i) t
  rw [ht.total, zero_add] at b1 b2
  have s1 : (1 - u) ^ 2 * ex ≤ scatterAdd c.nodeHash (wMassRounded rnd c m) j := by
    rw [Finset.mul_sum]
    refine Finset.sum_le_sum fun i _ => ?_
    split_ifs
    · exact lo i
    · simp
  have s2 : scatterAdd c.nodeHash (wMassRounded rnd c m) j ≤ (1 + u) ^ 2 * ex := by
    rw [Finset.mul_sum]
    refine Finset.sum_le_sum fun i _ => ?_
    split_ifs
    · exact hi i
    · simp
  have s0 : 0 ≤ scatterAdd c.nodeHash (wMassRounded rnd c m) j := Finset.sum_nonneg fun i _ => by
    split_ifs
    · exact w0 i
    · exact le_rfl
  refine ⟨le_trans ?_ b1, b2.trans ?_⟩
  · rw [pow_add, mul_assoc]
    exact mul_le_mul (pow_le_pow_of_le_one a0 (by linarith) ht.depth_le) s1
      (mul_nonneg (pow_nonneg a0 _) (Finset.sum_nonneg fun i _ => by split_ifs; exacts [hterm i, le_rfl])) (pow_nonneg a0 _)
  · rw [pow_add, mul_assoc]
    exact mul_le_mul (pow_le_pow_right₀ (by linarith) ht.depth_le) s2 s0 (pow_nonneg (by linarith) _)

/-- **C122.** Two orders give nearly the same sum of masses. -/
theorem mass_orders_agree {m : ℕ} (h : RelRound u rnd) (hu : u ≤ 1) (target : Fin m → ℕ) (j : ℕ) {init : ℚ} {val : Fin m → ℚ}
    (h0 : 0 ≤ init) (hv : ∀ i, 0 ≤ val i) {t t' : SumTree (Option (Fin m))} (ht : SumsTo target j t) (ht' : SumsTo target j t') :
    (1 - u) ^ hits target j * scatterRounded rnd init val t ≤ (1 + u) ^ hits target j * scatterRounded rnd init val t' := by
  have hu0 := relRound_nonneg_of h
  have a0 : (0 : ℚ) ≤ 1 - u := by linarith
  have hf : ∀ o : Option (Fin m), 0 ≤ o.elim init val := fun o => by cases o with | none => exact h0 | some i => exact hv i
  obtain ⟨-, b2⟩ := SumTree.eval_bounds h hu hf t
  obtain ⟨b1, -⟩ := SumTree.eval_bounds h hu hf t'
  have tn := SumTree.total_nonneg hf t'
  rw [ht.total] at b2
  rw [ht'.total] at b1 tn
  set T := init + scatterAdd target val j
  have c1 : scatterRounded rnd init val t ≤ (1 + u) ^ hits target j * T :=
    b2.trans (mul_le_mul_of_nonneg_right (pow_le_pow_right₀ (by linarith) ht.depth_le) tn)
  have c2 : (1 - u) ^ hits target j * T ≤ scatterRounded rnd init val t' :=
    (mul_le_mul_of_nonneg_right (pow_le_pow_of_le_one a0 (by linarith) ht'.depth_le) tn).trans b1
  calc (1 - u) ^ hits target j * scatterRounded rnd init val t
      ≤ (1 - u) ^ hits target j * ((1 + u) ^ hits target j * T) := mul_le_mul_of_nonneg_left c1 (pow_nonneg a0 _)
    _ = (1 + u) ^ hits target j * ((1 - u) ^ hits target j * T) := by ring
    _ ≤ _ := mul_le_mul_of_nonneg_left c2 (pow_nonneg (by linarith) _)

/-- **C122.** Whether a node is empty does not depend on the order: the mass is never negative, and zero exactly if nothing is added. -/
theorem mass_empty_iff {m : ℕ} (h : RelRound u rnd) (hu : u < 1) (target : Fin m → ℕ) (j : ℕ) {val : Fin m → ℚ}
    (hv : ∀ i, 0 ≤ val i) {t : SumTree (Option (Fin m))} (ht : SumsTo target j t) :
    0 ≤ scatterRounded rnd 0 val t ∧ (scatterRounded rnd 0 val t = 0 ↔ ∀ i, target i = j → val i = 0) := by
  have hu0 := relRound_nonneg_of h
  have a0 : (0 : ℚ) < 1 - u := by linarith
  obtain ⟨b1, b2⟩ := SumTree.eval_bounds (f := fun o : Option (Fin m) => o.elim 0 val) h hu.le
    (fun o => by cases o with | none => exact le_rfl | some i => exact hv i) t
  rw [ht.total, zero_add] at b1 b2
  have hz : scatterAdd target val j = 0 ↔ ∀ i, target i = j → val i = 0 := by
    unfold scatterAdd
    rw [Finset.sum_eq_zero_iff_of_nonneg fun i _ => by split_ifs; exacts [hv i, le_rfl]]
    simp
  have h0 : 0 ≤ scatterAdd target val j := Finset.sum_nonneg fun i _ => by split_ifs; exacts [hv i, le_rfl]
  refine ⟨le_trans (mul_nonneg (pow_nonneg a0.le _) h0) b1, ?_⟩
  rw [← hz]
  constructor
  · intro e
    change t.eval rnd _ = 0 at e
    rw [e] at b1
    have := pow_pos a0 t.depth
    exact le_antisymm (nonpos_of_mul_nonpos_right b1 this) h0
  · intro e
    rw [e, mul_zero] at b1 b2
    exact le_antisymm b2 b1

/-- **C122.** Momentum and force: the error is small compared with the sum of the sizes of the contributions, in any order. -/
theorem signed_scatter_faithful {m : ℕ} (h : RelRound u rnd) (target : Fin m → ℕ) (j : ℕ) (val : Fin m → ℚ)
    {t : SumTree (Option (Fin m))} (ht : SumsTo target j t) :
    |scatterRounded rnd 0 val t - ∑ i, (if target i = j then val i else 0)| ≤
      ((1 + u) ^ hits target j - 1) * ∑ i, (if target i = j then |val i| else 0) := by
  have hu0 := relRound_nonneg_of h
  have e := SumTree.eval_err h (fun o : Option (Fin m) => o.elim 0 val) t
  have ea : (fun o : Option (Fin m) => |o.elim 0 val|) = fun o => o.elim 0 fun i => |val i| := by
    funext o
    cases o <;> simp
  rw [ea, ht.total, ht.total, zero_add, zero_add] at e
  refine e.trans (mul_le_mul_of_nonneg_right (sub_le_sub_right (pow_le_pow_right₀ (by linarith) ht.depth_le) 1) ?_)
  exact Finset.sum_nonneg fun i _ => by split_ifs; exacts [abs_nonneg _, le_rfl]

/-- **C122.** The nodal velocity, from mass and momentum summed in any two orders, is at most the largest speed of the points times
`(1 + u)^(k + 2) / (1 - u)^k`: rounding creates no fast nodes, however light the node. -/
theorem node_speed_bounded {n w : ℕ} (h : RelRound u rnd) (hu : u < 1) (c : InteractionCache ℚ n w) (m v : Fin n → ℚ)
    (hw : ∀ i, 0 ≤ wMassRounded rnd c m i) (V cut : ℚ) (hV0 : 0 ≤ V) (hV : ∀ q, |v q| ≤ V) (hcut : 0 ≤ cut) (j : ℕ)
    {t t' : SumTree (Option (Fin (n * w)))} (ht : SumsTo c.nodeHash j t) (ht' : SumsTo c.nodeHash j t') :
    (1 - u) ^ hits c.nodeHash j * |nodeVelRounded rnd cut (scatterRounded rnd 0 (wMassRounded rnd c m) t)
      (scatterRounded rnd 0 (wMomentRounded rnd c m v) t')| ≤ (1 + u) ^ (hits c.nodeHash j + 2) * V := by
  have hu0 := relRound_nonneg_of h
  have a0 : (0 : ℚ) < 1 - u := by linarith
  set k := hits c.nodeHash j
  set M := scatterRounded rnd 0 (wMassRounded rnd c m) t with hM
  set P := scatterRounded rnd 0 (wMomentRounded rnd c m v) t' with hP
  unfold nodeVelRounded
  split_ifs with hc
  swap
  · rw [abs_zero, mul_zero]
    exact mul_nonneg (pow_nonneg (by linarith) _) hV0
  have hM0 : 0 < M := lt_of_le_of_lt hcut hc
  set S := scatterAdd c.nodeHash (wMassRounded rnd c m) j with hS
  have hS0 : 0 ≤ S := Finset.sum_nonneg fun i _ => by split_ifs; exacts [hw i, le_rfl]
  have hMS : (1 - u) ^ k * S ≤ M := by
    obtain ⟨b1, -⟩ := SumTree.eval_bounds (f := fun o : Option (Fin (n * w)) => o.elim 0 (wMassRounded rnd c m)) h hu.le
      (fun o => by cases o with | none => exact le_rfl | some i => exact hw i) t
    rw [ht.total, zero_add] at b1
    exact (mul_le_mul_of_nonneg_right (pow_le_pow_of_le_one a0.le (by linarith) ht.depth_le) hS0).trans b1
  have hmom : ∑ i, (if c.nodeHash i = j then |wMomentRounded rnd c m v i| else 0) ≤ (1 + u) * V * S := by
    rw [hS, scatterAdd, Finset.mul_sum]
    refine Finset.sum_le_sum fun i _ => ?_
    split_ifs
    · refine (relRound_abs_le h _).trans ?_
      rw [abs_mul, abs_of_nonneg (hw i), mul_assoc]
      refine mul_le_mul_of_nonneg_left ?_ (by linarith)
      rw [mul_comm]
      exact mul_le_mul_of_nonneg_right (hV _) (hw i)
    · simp
  have hP1 : |P| ≤ (1 + u) ^ k * ((1 + u) * V * S) := by
    have e := signed_scatter_faithful h c.nodeHash j (wMomentRounded rnd c m v) ht'
    rw [← hP] at e
    set A := ∑ i, (if c.nodeHash i = j then wMomentRounded rnd c m v i else 0) with hA
    set B := ∑ i, (if c.nodeHash i = j then |wMomentRounded rnd c m v i| else 0) with hB
    have hAB : |A| ≤ B := by
      refine (Finset.abs_sum_le_sum_abs _ _).trans (le_of_eq (Finset.sum_congr rfl fun i _ => ?_))
      split_ifs <;> simp
    have : |P| ≤ |P - A| + |A| := by
      calc |P| = |(P - A) + A| := by rw [sub_add_cancel]
        _ ≤ _ := abs_add_le _ _
    calc |P| ≤ (1 + u) ^ k * B := by linarith
      _ ≤ _ := mul_le_mul_of_nonneg_left hmom (pow_nonneg (by linarith) _)
  have h1 : |rnd (P / M)| ≤ (1 + u) * (|P| / M) := by
    have := relRound_abs_le h (P / M)
    rwa [abs_div, abs_of_pos hM0] at this
  calc (1 - u) ^ k * |rnd (P / M)| ≤ (1 - u) ^ k * ((1 + u) * ((1 + u) ^ k * ((1 + u) * V * S) / M)) :=
        mul_le_mul_of_nonneg_left (h1.trans (mul_le_mul_of_nonneg_left (div_le_div_of_nonneg_right hP1 hM0.le) (by linarith)))
          (pow_nonneg a0.le _)
    _ = (1 + u) ^ (k + 2) * V * (((1 - u) ^ k * S) / M) := by ring
    _ ≤ (1 + u) ^ (k + 2) * V * 1 := mul_le_mul_of_nonneg_left ((div_le_one hM0).mpr hMS)
        (mul_nonneg (pow_nonneg (by linarith) _) hV0)
    _ = _ := mul_one _

/-! ### In numbers -/

theorem one_sub_pow_ge (hu : u ≤ 1) (n : ℕ) : 1 - n * u ≤ (1 - u) ^ n := by
  have := one_add_mul_le_pow (a := -u) (by linarith) n
  simpa [sub_eq_add_neg] using this

theorem one_add_pow_le (hu0 : 0 ≤ u) (n : ℕ) (hn : n * u ≤ 1 / 2) : (1 + u) ^ n ≤ 1 + 2 * (n * u) := by
  by_cases h1 : u ≤ 1
  · have g := one_sub_pow_ge h1 n
    have p : (1 + u) ^ n * (1 - u) ^ n ≤ 1 := by
      rw [← mul_pow]
      exact pow_le_one₀ (mul_nonneg (by linarith) (by linarith)) (by nlinarith)
    have q0 : 0 ≤ (1 + u) ^ n := pow_nonneg (by linarith) _
    have q : (1 + u) ^ n * (1 - n * u) ≤ 1 := (mul_le_mul_of_nonneg_left g q0).trans p
    have nu0 : 0 ≤ n * u := mul_nonneg (Nat.cast_nonneg _) hu0
    nlinarith
  · push Not at h1
    have : n = 0 := by
      by_contra hc
      have : (1 : ℚ) ≤ n := by exact_mod_cast Nat.one_le_iff_ne_zero.mpr hc
      nlinarith
    simp [this]

/-- **C122.** With single precision (the default of JAX) the mass of a node with `k` contributions is right to a relative `(k + 2) 2^-23`,
in any order, for up to eight million contributions. -/
theorem mass_scatter_single {n w : ℕ} (c : InteractionCache ℚ n w) (m : Fin n → ℚ)
    (hv : ∀ i, 0 ≤ c.shapeVal i) (hk : ∀ i, 0 ≤ c.cpicMask i) (hm : ∀ q, 0 ≤ m q) (j : ℕ) {t : SumTree (Option (Fin (n * w)))}
    (ht : SumsTo c.nodeHash j t) (hn : hits c.nodeHash j + 2 ≤ 2 ^ 23) :
    let exact := ∑ i, if c.nodeHash i = j then c.shapeVal i * c.cpicMask i * m (c.pointId i) else 0
    |scatterRounded (rndBits 24) 0 (wMassRounded (rndBits 24) c m) t - exact| ≤ (hits c.nodeHash j + 2 : ℕ) / 2 ^ 23 * exact := by
  intro ex
  obtain ⟨h1, h2⟩ := mass_scatter_faithful (rndBits_relRound 24) (by norm_num) c m hv hk hm j ht
  have e0 : 0 ≤ ex := Finset.sum_nonneg fun i _ => by
    split_ifs
    exacts [mul_nonneg (mul_nonneg (hv i) (hk i)) (hm _), le_rfl]
  set k := hits c.nodeHash j + 2
  have hk' : (k : ℚ) * (1 / 2 ^ 24) ≤ 1 / 2 := by
    have : (k : ℚ) ≤ 2 ^ 23 := by exact_mod_cast hn
    linarith
  have lo := one_sub_pow_ge (u := 1 / 2 ^ 24) (by norm_num) k
  have hi := one_add_pow_le (u := 1 / 2 ^ 24) (by norm_num) k hk'
  have h1' := (mul_le_mul_of_nonneg_right lo e0).trans h1
  have h2' := h2.trans (mul_le_mul_of_nonneg_right hi e0)
  have k0 : (0 : ℚ) ≤ k := Nat.cast_nonneg _
  have ke := mul_nonneg k0 e0
  rw [abs_le]
  constructor
  · linarith
  · linarith

end

/-! ### The order matters -/

/-- Three points in the middle of one cell. -/
def orderCache : InteractionCache ℚ 3 (windowSize .linear 2) :=
  compute .linear (GridDomain.create (fun _ => 0) (fun _ => 1) (1 / 2) 2) (fun _ => ![1 / 4, 1 / 4])

/-- The contributions of the points to node 16, one after the other. -/
def orderA : SumTree (Option (Fin (3 * windowSize .linear 2))) :=
  .add (.add (.add (.leaf none) (.leaf (some (0 : Fin 12)))) (.leaf (some (4 : Fin 12)))) (.leaf (some (8 : Fin 12)))

/-- The second and third first. -/
def orderB : SumTree (Option (Fin (3 * windowSize .linear 2))) :=
  .add (.add (.leaf none) (.leaf (some (0 : Fin 12)))) (.add (.leaf (some (4 : Fin 12))) (.leaf (some (8 : Fin 12))))

/-- The first and third first. -/
def orderC : SumTree (Option (Fin (3 * windowSize .linear 2))) :=
  .add (.add (.add (.leaf none) (.leaf (some (0 : Fin 12)))) (.leaf (some (8 : Fin 12)))) (.leaf (some (4 : Fin 12)))

set_option maxRecDepth 100000 in
theorem order_sumsTo : SumsTo orderCache.nodeHash 16 orderA ∧ SumsTo orderCache.nodeHash 16 orderB ∧
    SumsTo orderCache.nodeHash 16 orderC := by
  decide +kernel

set_option maxRecDepth 100000 in
theorem order_weights : orderCache.shapeVal (0 : Fin 12) = 1 / 4 ∧ orderCache.shapeVal (4 : Fin 12) = 1 / 4 ∧
    orderCache.shapeVal (8 : Fin 12) = 1 / 4 ∧ orderCache.cpicMask (0 : Fin 12) = 1 ∧ orderCache.cpicMask (4 : Fin 12) = 1 ∧
    orderCache.cpicMask (8 : Fin 12) = 1 ∧ orderCache.pointId (0 : Fin 12) = 0 ∧ orderCache.pointId (4 : Fin 12) = 1 ∧
    orderCache.pointId (8 : Fin 12) = 2 := by
  decide +kernel

/-- Numbers between 2^24 and 2^25 are rounded to even integers. -/
theorem single_even {q : ℚ} (h1 : 2 ^ 24 ≤ q) (h2 : q < 2 ^ 25) (z : ℤ) (h : |q - 2 * z| < 1) : rndBits 24 q = 2 * z := by
  have hq : 0 < q := lt_of_lt_of_le (by norm_num) h1
  have hl : Int.log 2 |q| = 24 := by
    rw [abs_of_pos hq]
    have a : (24 : ℤ) ≤ Int.log 2 q := by
      rw [← Int.zpow_le_iff_le_log (by norm_num) hq]; exact_mod_cast h1
    have b : Int.log 2 q < 25 := by
      rw [← Int.lt_zpow_iff_log_lt (by norm_num) hq]; exact_mod_cast h2
    omega
  have hu : ulpBits 24 q = 2 := by unfold ulpBits; rw [hl]; norm_num
  have := rndBits_near (p := 24) hq.ne' z (by rw [hu, mul_comm]; simpa using h)
  rw [this, hu, mul_comm]

/-- Small dyadic numbers are kept. -/
theorem single_keep (m : ℤ) (k : ℤ) (hm : |m| ≤ 2 ^ 24) {q : ℚ} (hq : q = m * 2 ^ k) : rndBits 24 q = q :=
  rndBits_exact (by norm_num) ⟨m, k, hm, hq⟩

theorem single_quarter : rndBits 24 (1 / 4) = 1 / 4 := single_keep 1 (-2) (by norm_num) (by norm_num)
theorem single_big : rndBits 24 (2 ^ 24) = 2 ^ 24 := single_keep 1 24 (by norm_num) (by norm_num)
theorem single_neg_big : rndBits 24 (-2 ^ 24) = -2 ^ 24 := single_keep (-1) 24 (by norm_num) (by norm_num)
theorem single_three : rndBits 24 (3 / 4) = 3 / 4 := single_keep 3 (-2) (by norm_num) (by norm_num)
theorem single_half : rndBits 24 (3 / 2) = 3 / 2 := single_keep 3 (-1) (by norm_num) (by norm_num)
theorem single_zero : rndBits 24 0 = 0 := rfl
theorem single_lost : rndBits 24 (2 ^ 24 + 3 / 4) = 2 ^ 24 :=
  (single_even (by norm_num) (by norm_num) (2 ^ 23) (by rw [abs_lt]; norm_num)).trans (by norm_num)
theorem single_kept : rndBits 24 (2 ^ 24 + 3 / 2) = 2 ^ 24 + 2 :=
  (single_even (by norm_num) (by norm_num) (2 ^ 23 + 1) (by rw [abs_lt]; norm_num)).trans (by norm_num)

/-- Weighted masses of the example: masses 2^26, 3 and `m`. -/
theorem order_wMass (m : ℚ) : wMassRounded (rndBits 24) orderCache ![2 ^ 26, 3, m] (0 : Fin 12) = 2 ^ 24 ∧
    wMassRounded (rndBits 24) orderCache ![2 ^ 26, 3, m] (4 : Fin 12) = 3 / 4 ∧
    wMassRounded (rndBits 24) orderCache ![2 ^ 26, 3, m] (8 : Fin 12) = rndBits 24 (1 / 4 * m) := by
  obtain ⟨v0, v4, v8, k0, k4, k8, p0, p4, p8⟩ := order_weights
  unfold wMassRounded
  rw [v0, v4, v8, k0, k4, k8, p0, p4, p8]
  simp only [mul_one, single_quarter]
  refine ⟨?_, ?_, rfl⟩
  · rw [show (1 / 4 * ![2 ^ 26, 3, m] 0 : ℚ) = 2 ^ 24 by simp; norm_num]
    exact single_big
  · rw [show (1 / 4 * ![2 ^ 26, 3, m] 1 : ℚ) = 3 / 4 by simp; norm_num]
    exact single_three

/-- **C122** (negative): the same points give different nodal masses in different orders of addition; running the same program again may
give another result. -/
theorem mass_order_matters : SumsTo orderCache.nodeHash 16 orderA ∧ SumsTo orderCache.nodeHash 16 orderB ∧
    scatterRounded (rndBits 24) 0 (wMassRounded (rndBits 24) orderCache ![2 ^ 26, 3, 3]) orderA = 2 ^ 24 ∧
    scatterRounded (rndBits 24) 0 (wMassRounded (rndBits 24) orderCache ![2 ^ 26, 3, 3]) orderB = 2 ^ 24 + 2 := by
  obtain ⟨w0, w4, w8⟩ := order_wMass 3
  rw [show (1 / 4 * 3 : ℚ) = 3 / 4 by norm_num, single_three] at w8
  refine ⟨order_sumsTo.1, order_sumsTo.2.1, ?_, ?_⟩
  · show rndBits 24 (rndBits 24 (rndBits 24 (0 + wMassRounded (rndBits 24) orderCache ![2 ^ 26, 3, 3] (0 : Fin 12)) +
      wMassRounded (rndBits 24) orderCache ![2 ^ 26, 3, 3] (4 : Fin 12)) + wMassRounded (rndBits 24) orderCache ![2 ^ 26, 3, 3] (8 : Fin 12)) = _
    rw [w0, w4, w8, zero_add, single_big, single_lost, single_lost]
  · show rndBits 24 (rndBits 24 (0 + wMassRounded (rndBits 24) orderCache ![2 ^ 26, 3, 3] (0 : Fin 12)) + rndBits 24 (
      wMassRounded (rndBits 24) orderCache ![2 ^ 26, 3, 3] (4 : Fin 12) + wMassRounded (rndBits 24) orderCache ![2 ^ 26, 3, 3] (8 : Fin 12))) = _
    rw [w0, w4, w8, zero_add, single_big, show (3 / 4 + 3 / 4 : ℚ) = 3 / 2 by norm_num, single_half, single_kept]

/-- **C122** (negative): two heavy points moving against each other and a light one between: the node rests or moves depending on the
order. No bound relative to the momentum itself holds. -/
theorem moment_order_matters : SumsTo orderCache.nodeHash 16 orderA ∧ SumsTo orderCache.nodeHash 16 orderC ∧
    scatterRounded (rndBits 24) 0 (wMomentRounded (rndBits 24) orderCache ![2 ^ 26, 3, 2 ^ 26] ![1, 1, -1]) orderA = 0 ∧
    scatterRounded (rndBits 24) 0 (wMomentRounded (rndBits 24) orderCache ![2 ^ 26, 3, 2 ^ 26] ![1, 1, -1]) orderC = 3 / 4 := by
  obtain ⟨w0, w4, w8⟩ := order_wMass (2 ^ 26)
  rw [show (1 / 4 * 2 ^ 26 : ℚ) = 2 ^ 24 by norm_num, single_big] at w8
  obtain ⟨-, -, -, -, -, -, p0, p4, p8⟩ := order_weights
  have m0 : wMomentRounded (rndBits 24) orderCache ![2 ^ 26, 3, 2 ^ 26] ![1, 1, -1] (0 : Fin 12) = 2 ^ 24 := by
    show rndBits 24 (wMassRounded (rndBits 24) orderCache ![2 ^ 26, 3, 2 ^ 26] (0 : Fin 12) * ![1, 1, -1] (orderCache.pointId (0 : Fin 12))) = _
    rw [w0, p0]
    exact (congrArg _ (mul_one _)).trans single_big
  have m4 : wMomentRounded (rndBits 24) orderCache ![2 ^ 26, 3, 2 ^ 26] ![1, 1, -1] (4 : Fin 12) = 3 / 4 := by
    show rndBits 24 (wMassRounded (rndBits 24) orderCache ![2 ^ 26, 3, 2 ^ 26] (4 : Fin 12) * ![1, 1, -1] (orderCache.pointId (4 : Fin 12))) = _
    rw [w4, p4]
    exact (congrArg _ (mul_one _)).trans single_three
  have m8 : wMomentRounded (rndBits 24) orderCache ![2 ^ 26, 3, 2 ^ 26] ![1, 1, -1] (8 : Fin 12) = -2 ^ 24 := by
    show rndBits 24 (wMassRounded (rndBits 24) orderCache ![2 ^ 26, 3, 2 ^ 26] (8 : Fin 12) * ![1, 1, -1] (orderCache.pointId (8 : Fin 12))) = _
    rw [w8, p8]
    exact (congrArg _ (mul_neg_one _)).trans single_neg_big
  refine ⟨order_sumsTo.1, order_sumsTo.2.2, ?_, ?_⟩
  · show rndBits 24 (rndBits 24 (rndBits 24 (0 + wMomentRounded (rndBits 24) orderCache ![2 ^ 26, 3, 2 ^ 26] ![1, 1, -1] (0 : Fin 12)) +
      wMomentRounded (rndBits 24) orderCache ![2 ^ 26, 3, 2 ^ 26] ![1, 1, -1] (4 : Fin 12)) +
      wMomentRounded (rndBits 24) orderCache ![2 ^ 26, 3, 2 ^ 26] ![1, 1, -1] (8 : Fin 12)) = _
    rw [m0, m4, m8, zero_add, single_big, single_lost, add_neg_cancel, single_zero]
  · show rndBits 24 (rndBits 24 (rndBits 24 (0 + wMomentRounded (rndBits 24) orderCache ![2 ^ 26, 3, 2 ^ 26] ![1, 1, -1] (0 : Fin 12)) +
      wMomentRounded (rndBits 24) orderCache ![2 ^ 26, 3, 2 ^ 26] ![1, 1, -1] (8 : Fin 12)) +
      wMomentRounded (rndBits 24) orderCache ![2 ^ 26, 3, 2 ^ 26] ![1, 1, -1] (4 : Fin 12)) = _
    rw [m0, m4, m8, zero_add, single_big, add_neg_cancel, single_zero, zero_add, single_three]

set_option maxRecDepth 100000 in
theorem order_nonneg : (∀ i, 0 ≤ orderCache.shapeVal i) ∧ (∀ i, 0 ≤ orderCache.cpicMask i) ∧ hits orderCache.nodeHash 16 = 3 := by
  decide +kernel

/-- `mass_scatter_single` on the example: off by at most 5 · 2^-23 of the mass. -/
example : |scatterRounded (rndBits 24) 0 (wMassRounded (rndBits 24) orderCache ![2 ^ 26, 3, 3]) orderA -
      ∑ i, (if orderCache.nodeHash i = 16 then orderCache.shapeVal i * orderCache.cpicMask i * ![2 ^ 26, 3, 3] (orderCache.pointId i) else 0)| ≤
    (5 : ℕ) / 2 ^ 23 * ∑ i, (if orderCache.nodeHash i = 16 then
      orderCache.shapeVal i * orderCache.cpicMask i * ![2 ^ 26, 3, 3] (orderCache.pointId i) else 0) := by
  obtain ⟨h1, h2, h3⟩ := order_nonneg
  have := mass_scatter_single orderCache ![2 ^ 26, 3, 3] h1 h2 (fun q => by fin_cases q <;> norm_num) 16 order_sumsTo.1
    (by rw [h3]; norm_num)
  rw [h3] at this
  exact this

/-- `node_speed_bounded` on the example with the two opposite velocities. -/
example : (1 - 1 / 2 ^ 24) ^ 3 * |nodeVelRounded (rndBits 24) (1 / 10 ^ 12)
      (scatterRounded (rndBits 24) 0 (wMassRounded (rndBits 24) orderCache ![2 ^ 26, 3, 3]) orderA)
      (scatterRounded (rndBits 24) 0 (wMomentRounded (rndBits 24) orderCache ![2 ^ 26, 3, 3] ![1, 1, -1]) orderC)| ≤
    (1 + 1 / 2 ^ 24) ^ (3 + 2) * 1 := by
  obtain ⟨h1, h2, h3⟩ := order_nonneg
  have := node_speed_bounded (rndBits_relRound 24) (by norm_num) orderCache ![2 ^ 26, 3, 3] ![1, 1, -1]
    (fun i => rndBits_nonneg 24 (mul_nonneg (rndBits_nonneg 24 (mul_nonneg (h1 i) (h2 i)))
      (by generalize orderCache.pointId i = q; fin_cases q <;> norm_num))) 1 (1 / 10 ^ 12)
    zero_le_one (fun q => by fin_cases q <;> simp) (by norm_num) 16 order_sumsTo.1 order_sumsTo.2.2
  rw [h3] at this
  exact this

/-- `mass_orders_agree` and `mass_empty_iff` on the example. -/
example : (1 - 1 / 2 ^ 24) ^ 3 * scatterRounded (rndBits 24) 0 (fun _ => 1) orderB ≤
      (1 + 1 / 2 ^ 24) ^ 3 * scatterRounded (rndBits 24) 0 (fun _ => 1) orderC ∧
    scatterRounded (rndBits 24) 0 (fun _ => 1) orderA ≠ 0 := by
  obtain ⟨-, -, h3⟩ := order_nonneg
  have h := mass_orders_agree (rndBits_relRound 24) (by norm_num) orderCache.nodeHash 16 (init := 0) (val := fun _ => 1) le_rfl
    (fun _ => zero_le_one) order_sumsTo.2.1 order_sumsTo.2.2
  rw [h3] at h
  refine ⟨h, fun e => ?_⟩
  have := ((mass_empty_iff (rndBits_relRound 24) (by norm_num) orderCache.nodeHash 16 (val := fun _ => 1) (fun _ => zero_le_one)
    order_sumsTo.1).2.mp e) (0 : Fin 12) (by decide +kernel)
  exact one_ne_zero this

end Hydrax
