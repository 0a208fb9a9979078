import Verif.Props.SdfDistance

/-!
# The planar hollow cylinder reports signed distance (C68)
-/

set_option linter.unusedSectionVars false

namespace Hydrax

open Spec

section
variable {n : ℕ}

/-- Points whose distance from the origin is between the two radii. -/
def Spec.ring (rIn rOut : ℝ) : Set (Fin n → ℝ) := {y | rIn ≤ eDist y (fun _ => 0) ∧ eDist y (fun _ => 0) ≤ rOut}

/-- Two upright walls. -/
def Spec.walls (rIn rOut hh : ℝ) : Set (Fin 2 → ℝ) := {y | rIn ≤ |y 0| ∧ |y 0| ≤ rOut ∧ |y 1| ≤ hh}

theorem signedDist_ring {rIn rOut : ℝ} (h0 : 0 < rIn) (h1 : rIn ≤ rOut) (x : Fin (n + 1) → ℝ) :
    signedDist (ring rIn rOut) x = max (eDist x (fun _ => 0) - rOut) (rIn - eDist x fun _ => 0) := by
  set c : Fin (n + 1) → ℝ := fun _ => 0 with hc
  set r := eDist x c with hr
  have hr0 : 0 ≤ r := eDist_nonneg _ _
  have tri : ∀ y, |r - eDist y c| ≤ eDist x y := by
    intro y
    have t1 := eDist_triangle x y c
    have t2 := eDist_triangle y x c
    rw [eDist_comm y x] at t2
    rw [abs_le]
    constructor <;> linarith
  refine signedDist_eq (fun hx => ⟨fun y hy => ?_, fun ε hε => ?_⟩) (fun hx => ⟨fun y hy => ?_, fun ε hε => ?_⟩)
  · have ht := abs_le.mp (tri y)
    have hy : ¬ (rIn ≤ eDist y c ∧ eDist y c ≤ rOut) := hy
    by_cases hb : rIn ≤ eDist y c
    · have : rOut < eDist y c := not_le.mp fun h => hy ⟨hb, h⟩
      have := le_max_left (r - rOut) (rIn - r)
      linarith
    · have := le_max_right (r - rOut) (rIn - r)
      linarith
  · have hx : rIn ≤ r ∧ r ≤ rOut := hx
    rcases le_total (r - rOut) (rIn - r) with hm | hm
    · rw [max_eq_right hm]
      have hε' : 0 < min ε rIn := lt_min hε h0
      obtain ⟨y, e1, e2, -⟩ := radial_move x c (t := rIn - r - min ε rIn) (by linarith [min_le_right ε rIn])
      refine ⟨y, fun hy => ?_, ?_⟩
      · have := hy.1
        rw [e2] at this
        linarith
      · rw [e1, abs_of_nonpos (by linarith [hx.1])]
        linarith [min_le_left ε rIn]
    · rw [max_eq_left hm]
      obtain ⟨y, e1, e2, -⟩ := radial_move x c (t := rOut - r + ε) (by linarith)
      refine ⟨y, fun hy => ?_, ?_⟩
      · have := hy.2
        rw [e2] at this
        linarith
      · rw [e1, abs_of_nonneg (by linarith [hx.2])]
        linarith
  · have ht := abs_le.mp (tri y)
    exact max_le (by linarith [hy.2]) (by linarith [hy.1])
  · have hx : ¬ (rIn ≤ r ∧ r ≤ rOut) := hx
    by_cases hb : rIn ≤ r
    · have hb2 : rOut < r := not_le.mp fun h => hx ⟨hb, h⟩
      obtain ⟨y, e1, e2, -⟩ := radial_move x c (t := rOut - r) (by linarith)
      refine ⟨y, ⟨?_, ?_⟩, ?_⟩
      · rw [e2]; linarith
      · rw [e2]; linarith
      · rw [e1, abs_of_nonpos (by linarith)]
        linarith [le_max_left (r - rOut) (rIn - r)]
    · have hb := not_le.mp hb
      obtain ⟨y, e1, e2, -⟩ := radial_move x c (t := rIn - r) (by linarith)
      refine ⟨y, ⟨?_, ?_⟩, ?_⟩
      · rw [e2]; linarith
      · rw [e2]; linarith
      · rw [e1, abs_of_nonneg (by linarith)]
        linarith [le_max_right (r - rOut) (rIn - r)]

/-- Length of a planar vector. -/
theorem norm2_two (u w : ℝ) : norm2 realFns ![u, w] = Real.sqrt (u ^ 2 + w ^ 2) := by simp [norm2, Fin.sum_univ_two]

theorem signedDist_walls {rIn rOut hh : ℝ} (h0 : 0 < rIn) (h1 : rIn ≤ rOut) (h2 : 0 ≤ hh) (x : Fin 2 → ℝ) :
    signedDist (walls rIn rOut hh) x =
      norm2 realFns ![max (max (|x 0| - rOut) (rIn - |x 0|)) 0, max (|x 1| - hh) 0] +
        min (max (max (|x 0| - rOut) (rIn - |x 0|)) (|x 1| - hh)) 0 := by
  set d := max (|x 0| - rOut) (rIn - |x 0|) with hd
  set e := |x 1| - hh with he
  have d1 : |x 0| - rOut ≤ d := le_max_left _ _
  have d2 : rIn - |x 0| ≤ d := le_max_right _ _
  have hx0 := abs_nonneg (x 0)
  -- moving one coordinate to a given absolute value
  have mv0 : ∀ c, 0 ≤ c → ∃ y : Fin 2 → ℝ, |y 0| = c ∧ y 1 = x 1 ∧ |x 0 - y 0| = |(|x 0|) - c| := by
    intro c hc
    rcases le_or_gt 0 (x 0) with h | h
    · exact ⟨![c, x 1], by simp [abs_of_nonneg hc], by simp, by simp [abs_of_nonneg h]⟩
    · refine ⟨![-c, x 1], by simp [abs_of_nonneg hc], by simp, ?_⟩
      simp only [Matrix.cons_val_zero, abs_of_neg h]
      rw [← abs_neg]; congr 1; ring
  have mv1 : ∀ (y : Fin 2 → ℝ) (c : ℝ), 0 ≤ c → ∃ z : Fin 2 → ℝ, z 0 = y 0 ∧ |z 1| = c ∧ |x 1 - z 1| = |(|x 1|) - c| := by
    intro y c hc
    rcases le_or_gt 0 (x 1) with h | h
    · exact ⟨![y 0, c], by simp, by simp [abs_of_nonneg hc], by simp [abs_of_nonneg h]⟩
    · refine ⟨![y 0, -c], by simp, by simp [abs_of_nonneg hc], ?_⟩
      simp only [Matrix.cons_val_one, Matrix.cons_val_fin_one, abs_of_neg h]
      rw [← abs_neg]; congr 1; ring
  have dist_eq : ∀ y : Fin 2 → ℝ, eDist x y = Real.sqrt (|x 0 - y 0| ^ 2 + |x 1 - y 1| ^ 2) := fun y => by
    rw [eDist_two, sq_abs, sq_abs]
  refine signedDist_eq (fun hx => ?_) (fun hx => ?_)
  · obtain ⟨i1, i2, i3⟩ : rIn ≤ |x 0| ∧ |x 0| ≤ rOut ∧ |x 1| ≤ hh := hx
    have hd0 : d ≤ 0 := max_le (by linarith) (by linarith)
    have he0 : e ≤ 0 := by rw [he]; linarith
    rw [max_eq_right hd0, max_eq_right he0, min_eq_left (max_le hd0 he0), norm2_two]
    simp only [ne_eq, OfNat.ofNat_ne_zero, not_false_eq_true, zero_pow, add_zero, Real.sqrt_zero, zero_add]
    constructor
    · intro y hy
      have c0 := (abs_sub_abs_le_abs_sub (y 0) (x 0)).trans_eq (abs_sub_comm _ _)
      have c0' := abs_sub_abs_le_abs_sub (x 0) (y 0)
      have c1 := (abs_sub_abs_le_abs_sub (y 1) (x 1)).trans_eq (abs_sub_comm _ _)
      have k0 := eDist_coord x y 0
      have k1 := eDist_coord x y 1
      have m1 := le_max_left d e
      have m2 := le_max_right d e
      by_cases a1 : rIn ≤ |y 0|
      · by_cases a2 : |y 0| ≤ rOut
        · have a3 : hh < |y 1| := not_le.mp fun h => hy ⟨a1, a2, h⟩
          linarith
        · linarith
      · linarith
    · intro ε hε
      rcases le_total d e with hm | hm
      · obtain ⟨y, y0, y1, y2⟩ := mv1 x (hh + ε) (by linarith)
        refine ⟨y, fun hy => ?_, ?_⟩
        · have := hy.2.2
          linarith
        · rw [dist_eq, y0, y2, max_eq_right hm, abs_of_nonpos (by linarith : |x 1| - (hh + ε) ≤ 0)]
          simp only [sub_self, abs_zero, ne_eq, OfNat.ofNat_ne_zero, not_false_eq_true, zero_pow, zero_add]
          rw [Real.sqrt_sq (by linarith)]
          linarith
      · rw [max_eq_left hm]
        rcases le_total (|x 0| - rOut) (rIn - |x 0|) with hq | hq
        · have hε' : 0 < min ε rIn := lt_min hε h0
          obtain ⟨y, y0, y1, y2⟩ := mv0 (rIn - min ε rIn) (by linarith [min_le_right ε rIn])
          refine ⟨y, fun hy => ?_, ?_⟩
          · have := hy.1
            linarith
          · have hd' : d = rIn - |x 0| := max_eq_right hq
            rw [dist_eq, y1, y2, abs_of_nonneg (by linarith : 0 ≤ |x 0| - (rIn - min ε rIn))]
            simp only [sub_self, abs_zero, ne_eq, OfNat.ofNat_ne_zero, not_false_eq_true, zero_pow, add_zero]
            rw [Real.sqrt_sq (by linarith), hd']
            linarith [min_le_left ε rIn]
        · obtain ⟨y, y0, y1, y2⟩ := mv0 (rOut + ε) (by linarith)
          refine ⟨y, fun hy => ?_, ?_⟩
          · have := hy.2.1
            linarith
          · have hd' : d = |x 0| - rOut := max_eq_left hq
            rw [dist_eq, y1, y2, abs_of_nonpos (by linarith : |x 0| - (rOut + ε) ≤ 0)]
            simp only [sub_self, abs_zero, ne_eq, OfNat.ofNat_ne_zero, not_false_eq_true, zero_pow, add_zero]
            rw [Real.sqrt_sq (by linarith), hd']
            linarith
  · have hpos : 0 ≤ max d e := by
      by_contra hlt
      have hlt := not_le.mp hlt
      have l1 := (le_max_left d e).trans_lt hlt
      have l2 := (le_max_right d e).trans_lt hlt
      exact hx ⟨by linarith, by linarith, by linarith⟩
    rw [min_eq_right hpos, add_zero, norm2_two]
    constructor
    · rintro y ⟨a1, a2, a3⟩
      have c0 := (abs_sub_abs_le_abs_sub (y 0) (x 0)).trans_eq (abs_sub_comm _ _)
      have c0' := abs_sub_abs_le_abs_sub (x 0) (y 0)
      have c1 := abs_sub_abs_le_abs_sub (x 1) (y 1)
      rw [dist_eq]
      refine Real.sqrt_le_sqrt (add_le_add ?_ ?_)
      · exact pow_le_pow_left₀ (le_max_right _ _)
          (max_le (max_le (by linarith) (by linarith)) (abs_nonneg _)) 2
      · exact pow_le_pow_left₀ (le_max_right _ _) (max_le (by linarith) (abs_nonneg _)) 2
    · intro ε hε
      obtain ⟨y, y0, y1, y2⟩ := mv0 (max rIn (min |x 0| rOut)) (by linarith [le_max_left rIn (min |x 0| rOut)])
      obtain ⟨z, z0, z1, z2⟩ := mv1 y (min |x 1| hh) (le_min (abs_nonneg _) h2)
      refine ⟨z, ⟨?_, ?_, ?_⟩, ?_⟩
      · rw [z0, y0]; exact le_max_left _ _
      · rw [z0, y0]; exact max_le h1 (min_le_right _ _)
      · rw [z1]; exact min_le_right _ _
      · refine le_trans (le_of_eq ?_) (le_add_of_nonneg_right hε.le)
        rw [dist_eq, z0, y2, z2]
        have e0 : |(|x 0|) - max rIn (min |x 0| rOut)| = max d 0 := by
          rcases le_or_gt |x 0| rIn with c | c
          · rw [min_eq_left (by linarith), max_eq_left c, abs_of_nonpos (by linarith)]
            have : d = rIn - |x 0| := max_eq_right (by linarith)
            rw [this, max_eq_left (by linarith)]; ring
          · rcases le_or_gt |x 0| rOut with c' | c'
            · rw [min_eq_left c', max_eq_right c.le, sub_self, abs_zero]
              exact (max_eq_right (max_le (by linarith) (by linarith))).symm
            · rw [min_eq_right c'.le, max_eq_right h1, abs_of_nonneg (by linarith)]
              have : d = |x 0| - rOut := max_eq_left (by linarith)
              rw [this, max_eq_left (by linarith)]
        have e1 : |(|x 1|) - min |x 1| hh| = max e 0 := by
          rcases le_or_gt |x 1| hh with c | c
          · rw [min_eq_left c, sub_self, abs_zero, max_eq_right (by linarith)]
          · rw [min_eq_right c.le, abs_of_nonneg (by linarith), max_eq_left (by linarith)]
        rw [e0, e1]

/-- **C68**: `HollowCylinderSDF` in the plane, as a ring, reports the signed distance, too large by at most 1e-6. The wall
may be up to 2e9 thick because the axial distance is replaced by -1e9. -/
theorem ring_signed_distance (grad : ((Fin 2 → ℝ) → ℝ) → (Fin 2 → ℝ) → Fin 2 → ℝ) (friction : (Fin 2 → ℝ) → ℝ)
    {height rOut rIn : ℝ} (h0 : 0 < rIn) (h1 : rIn ≤ rOut) (h2 : rOut - rIn ≤ 2 * 10 ^ 9) (s : SdfState ℝ 2)
    (x : Fin 2 → ℝ) :
    let true_ := signedDist (posed s (ring rIn rOut)) x
    let code := (baseSdf realFns grad (hollow2Dist realFns true height rOut rIn) friction).dist s x
    true_ ≤ code ∧ code ≤ true_ + 1 / 10 ^ 6 := by
  intro true_ code
  have ht : true_ = _ := (signedDist_posed (n := 2) (s := s) trivial _ _).trans (signedDist_ring h0 h1 _)
  set X := toLocal realFns s x
  set d := max (eDist X (fun _ => 0) - rOut) (rIn - eDist X fun _ => 0) with hd
  have hc : code = combine2 realFns d (-10 ^ 9) := by
    change hollow2Dist realFns true height rOut rIn X = _
    simp only [hollow2Dist, if_true, norm2_eDist, hd]
  have hd1 : -10 ^ 9 ≤ d := by
    have l1 := le_max_left (eDist X (fun _ => 0) - rOut) (rIn - eDist X fun _ => 0)
    have l2 := le_max_right (eDist X (fun _ => 0) - rOut) (rIn - eDist X fun _ => 0)
    rw [← hd] at l1 l2
    linarith
  have hb := safeNorm_bias ![max d 0, max (-10 ^ 9 : ℝ) 0]
  have hn : norm2 realFns ![max d 0, max (-10 ^ 9 : ℝ) 0] = max d 0 := by
    rw [norm2_two, max_eq_right (by norm_num : (-10 ^ 9 : ℝ) ≤ 0), zero_pow two_ne_zero, add_zero,
      Real.sqrt_sq (le_max_right _ _)]
  rw [hn] at hb
  have hs : max d 0 + min d 0 = d := by rw [max_add_min, add_zero]
  rw [ht, hc, combine2, max_eq_left hd1]
  constructor <;> linarith [hb.1, hb.2]

/-- **C68**: `HollowCylinderSDF` in the plane, as a side view, reports the signed distance of the two walls, too large by
at most 1e-6. -/
theorem walls_signed_distance (grad : ((Fin 2 → ℝ) → ℝ) → (Fin 2 → ℝ) → Fin 2 → ℝ) (friction : (Fin 2 → ℝ) → ℝ)
    {height rOut rIn : ℝ} (h0 : 0 < rIn) (h1 : rIn ≤ rOut) (h2 : 0 ≤ height) (s : SdfState ℝ 2) (x : Fin 2 → ℝ) :
    let true_ := signedDist (posed s (walls rIn rOut (height / 2))) x
    let code := (baseSdf realFns grad (hollow2Dist realFns false height rOut rIn) friction).dist s x
    true_ ≤ code ∧ code ≤ true_ + 1 / 10 ^ 6 := by
  intro true_ code
  have ht : true_ = _ := (signedDist_posed (n := 2) (s := s) trivial _ _).trans
    (signedDist_walls h0 h1 (by linarith : 0 ≤ height / 2) _)
  set X := toLocal realFns s x
  have hc : code = combine2 realFns (max (|X 0| - rOut) (rIn - |X 0|)) (|X 1| - height / 2) := by
    change hollow2Dist realFns false height rOut rIn X = _
    simp [hollow2Dist]
  have hb := safeNorm_bias ![max (max (|X 0| - rOut) (rIn - |X 0|)) 0, max (|X 1| - height / 2) 0]
  rw [ht, hc, combine2]
  constructor <;> linarith [hb.1, hb.2]

/-- The inner radius must be positive: for a full disc the code reports its centre as surface. -/
theorem ring_no_hole_wrong : hollow2Dist realFns true 1 1 0 (fun _ => 0) ≥ 0 ∧ signedDist (ring 0 1) (fun _ : Fin 2 => 0) = -1 := by
  constructor
  · have hz : norm2 realFns (fun _ : Fin 2 => (0 : ℝ)) = 0 := by simp [norm2]
    have h := Real.sqrt_nonneg (1 / 10 ^ 12 : ℝ)
    simp only [hollow2Dist, if_true, hz, combine2, safeNorm, realFns_sqrt]
    norm_num
  · have : (ring 0 1 : Set (Fin 2 → ℝ)) = ball (fun _ => 0) 1 := by
      ext y
      simp [ring, ball, eDist_nonneg]
    rw [this, signedDist_ball _ zero_le_one, eDist_self]; norm_num

/-- A ring with radii 1 and 2, seen from its hole. -/
example : signedDist (ring 1 2) (![1 / 2, 0] : Fin 2 → ℝ) = 1 / 2 := by
  rw [signedDist_ring one_pos one_le_two]
  have : eDist (![1 / 2, 0] : Fin 2 → ℝ) (fun _ => 0) = 1 / 2 := by
    rw [eDist_two]; simp
  rw [this]; norm_num

end
end Hydrax
