import Verif.Model.Generate
import Mathlib.Tactic.Linarith
import Mathlib.Tactic.Positivity
import Mathlib.Tactic.FieldSimp
import Mathlib.Tactic.Ring
import Mathlib.Data.Rat.Floor
import Mathlib.Data.List.Nodup

/-!
# Generated bodies (C51)
-/

set_option linter.unusedSectionVars false

namespace Hydrax

theorem mem_meshPts {α : Type*} : (dim : ℕ) → (r : Fin dim → List α) → (f : Fin dim → α) →
    (f ∈ meshPts dim r ↔ ∀ a, f a ∈ r a)
  | 0, r, f => by
    simp only [meshPts, List.mem_singleton]
    exact ⟨fun _ a => a.elim0, fun _ => funext fun a => a.elim0⟩
  | d + 1, r, f => by
    simp only [meshPts, List.mem_flatMap, List.mem_map]
    constructor
    · rintro ⟨x, hx, g, hg, rfl⟩ a
      refine Fin.cases ?_ (fun b => ?_) a
      · simpa using hx
      · simpa using (mem_meshPts d _ g).mp hg b
    · intro h
      exact ⟨f 0, h 0, fun a => f a.succ, (mem_meshPts d _ _).mpr fun a => h a.succ, Fin.cons_self_tail f⟩

theorem nodup_meshPts {α : Type*} : (dim : ℕ) → (r : Fin dim → List α) → (∀ a, (r a).Nodup) → (meshPts dim r).Nodup
  | 0, _, _ => List.nodup_singleton _
  | d + 1, r, h => by
    rw [meshPts, List.nodup_flatMap]
    refine ⟨fun x _ => ?_, ?_⟩
    · exact (nodup_meshPts d _ fun a => h a.succ).map fun f g e => by
        have := congrArg Fin.tail e
        simpa using this
    · refine (h 0).imp ?_
      intro x y hxy
      rw [Function.onFun, List.disjoint_left]
      intro f hf hg
      obtain ⟨g1, -, rfl⟩ := List.mem_map.mp hf
      obtain ⟨g2, -, e⟩ := List.mem_map.mp hg
      have := congrFun e 0
      simp only [Fin.cons_zero] at this
      exact hxy this.symm

theorem length_meshPts {α : Type*} : (dim : ℕ) → (r : Fin dim → List α) → (n : ℕ) → (∀ a, (r a).length = n) →
    (meshPts dim r).length = n ^ dim
  | 0, _, _, _ => rfl
  | d + 1, r, n, h => by
    simp only [meshPts, List.length_flatMap, List.length_map, length_meshPts d (fun a => r a.succ) n fun a => h a.succ,
      List.map_const', List.sum_replicate, h 0, smul_eq_mul]
    rw [pow_succ']

/-- The number of points per direction is the least one whose power reaches the requested points per cell. -/
theorem ptsPerDim_least {dim ppc : ℕ} (hd : 0 < dim) :
    ppc ≤ ptsPerDim dim ppc ^ dim ∧ ∀ j, ppc ≤ j ^ dim → ptsPerDim dim ppc ≤ j := by
  have hex : ((List.range (ppc + 1)).find? fun k => decide (ppc ≤ k ^ dim)).isSome := by
    rw [List.find?_isSome]
    refine ⟨ppc, List.mem_range.mpr (by omega), ?_⟩
    simp only [decide_eq_true_eq]
    exact Nat.le_self_pow hd.ne' ppc
  obtain ⟨k, hk⟩ := Option.isSome_iff_exists.mp hex
  have hk' : ptsPerDim dim ppc = k := by rw [ptsPerDim, hk]; rfl
  rw [hk']
  obtain ⟨h1, -, h3⟩ := List.find?_range_eq_some.mp hk
  simp only [decide_eq_true_eq] at h1
  refine ⟨h1, fun j hj => ?_⟩
  by_contra hc
  have := h3 j (not_le.mp hc)
  simp only [Bool.not_eq_true', decide_eq_false_iff_not] at this
  exact this hj

/-- Five points per cell of a plane take three per side. -/
example : 5 ≤ ptsPerDim 2 5 ^ 2 ∧ ∀ j, 5 ≤ j ^ 2 → ptsPerDim 2 5 ≤ j := ptsPerDim_least (by norm_num)

section
variable {K : Type*} [Field K] [LinearOrder K] [IsStrictOrderedRing K] [FloorRing K] {dim : ℕ}

theorem mem_arange {s e i : ℤ} : i ∈ arange s e ↔ s ≤ i ∧ i < e := by
  simp only [arange, List.mem_map, List.mem_range]
  constructor
  · rintro ⟨k, hk, rfl⟩
    omega
  · rintro ⟨h1, h2⟩
    exact ⟨(i - s).toNat, by omega, by omega⟩

theorem mem_regularCandidates (lo hi : Fin dim → K) (h : K) (ppc : ℕ) (x : Fin dim → K) :
    x ∈ regularCandidates lo hi h ppc ↔ ∃ (i : Fin dim → ℤ) (k : Fin dim → ℕ),
      (∀ a, ⌊lo a / h⌋ ≤ i a ∧ i a < ⌈hi a / h⌉) ∧ (∀ a, k a < ptsPerDim dim ppc) ∧
      ∀ a, x a = i a * h + (2 * k a + 1) / (2 * ptsPerDim dim ppc) := by
  simp only [regularCandidates, List.mem_flatMap, List.mem_map]
  constructor
  · rintro ⟨_, ⟨i, hi', rfl⟩, f, hf, rfl⟩
    have hf' := (mem_meshPts _ _ _).mp hf
    simp only [linOffsets, List.mem_map, List.mem_range] at hf'
    choose k hk hk' using hf'
    exact ⟨i, k, fun a => mem_arange.mp ((mem_meshPts _ _ _).mp hi' a), hk, fun a => by rw [hk' a]⟩
  · rintro ⟨i, k, h1, h2, h3⟩
    refine ⟨_, ⟨i, (mem_meshPts _ _ _).mpr fun a => mem_arange.mpr (h1 a), rfl⟩,
      fun a => (2 * (k a : K) + 1) / (2 * ptsPerDim dim ppc), (mem_meshPts _ _ _).mpr fun a => ?_, ?_⟩
    · simp only [linOffsets, List.mem_map, List.mem_range]
      exact ⟨k a, h2 a, rfl⟩
    · funext a; exact (h3 a).symm

/-- **C51**: every mode that returns points returns exactly the candidates of negative signed distance. -/
theorem generated_inside (dist : (Fin dim → K) → K) (lo hi : Fin dim → K) (mode : GenMode K dim) (l : List (Fin dim → K))
    (h : generateParticles dist lo hi mode = .ok l) :
    (∀ x ∈ l, dist x < 0) ∧
    (∀ pts, mode = .random pts → ∀ x ∈ pts, dist x < 0 → x ∈ l) ∧
    (∀ c ppc, mode = .regular c ppc → ∀ x ∈ regularCandidates lo hi c ppc, dist x < 0 → x ∈ l) := by
  cases mode with
  | random pts =>
    simp only [generateParticles, Except.ok.injEq] at h
    subst h
    refine ⟨fun x hx => by simpa using (List.mem_filter.mp hx).2, fun pts' hp x hx hd => ?_, fun _ _ hm => by simp at hm⟩
    simp only [GenMode.random.injEq] at hp
    exact List.mem_filter.mpr ⟨hp ▸ hx, by simpa using hd⟩
  | regular c ppc =>
    simp only [generateParticles, Except.ok.injEq] at h
    subst h
    refine ⟨fun x hx => by simpa using (List.mem_filter.mp hx).2, fun _ hm => by simp at hm, fun c' p' hp x hx hd => ?_⟩
    simp only [GenMode.regular.injEq] at hp
    obtain ⟨rfl, rfl⟩ := hp
    exact List.mem_filter.mpr ⟨hx, by simpa using hd⟩
  | _ => simp [generateParticles] at h

/-- Three candidates, of which two lie below the floor at height 1/2. -/
example : ∀ l, generateParticles (fun x : Fin 2 → ℚ => x 1 - 1 / 2) ![0, 0] ![1, 1]
      (.random [![0, 1 / 4], ![0, 3 / 4], ![1, 1 / 3]]) = .ok l → (∀ x ∈ l, x 1 - 1 / 2 < 0) ∧ ![1, 1 / 3] ∈ l := fun l h =>
  have := generated_inside _ _ _ _ l h
  ⟨this.1, this.2.1 _ rfl _ (by simp) (by norm_num)⟩

/-- The cell of side `h` with integer corner `i`. -/
def Spec.InCell (h : K) (i : Fin dim → ℤ) (x : Fin dim → K) : Prop := ∀ a, (i a : K) * h < x a ∧ x a < (i a + 1) * h

/-- **C51** for unit cells: every candidate lies strictly inside exactly one cell, at the centre of one of its sub-cells,
and every cell that meets the interior of the bounding box receives all its sub-cell centres, each once. Missing: cell sizes
other than one, see `regular_overlaps`. -/
theorem regular_cells_partial (lo hi : Fin dim → K) (ppc : ℕ) :
    (∀ x ∈ regularCandidates lo hi 1 ppc, ∃ i : Fin dim → ℤ, Spec.InCell 1 i x ∧
      (∀ j, Spec.InCell 1 j x → j = i) ∧
      ∃ k : Fin dim → ℕ, (∀ a, k a < ptsPerDim dim ppc) ∧ ∀ a, x a = i a + (2 * k a + 1) / (2 * ptsPerDim dim ppc)) ∧
    (∀ (i : Fin dim → ℤ), (∃ y, Spec.InCell 1 i y ∧ ∀ a, lo a < y a ∧ y a < hi a) →
      ∀ k : Fin dim → ℕ, (∀ a, k a < ptsPerDim dim ppc) →
        (fun a => (i a : K) + (2 * k a + 1) / (2 * ptsPerDim dim ppc)) ∈ regularCandidates lo hi 1 ppc) ∧
    (regularCandidates lo hi 1 ppc).Nodup := by
  set n := ptsPerDim dim ppc with hn
  have hoff : ∀ k : ℕ, k < n → (0 : K) < (2 * k + 1) / (2 * n) ∧ (2 * (k : K) + 1) / (2 * n) < 1 := by
    intro k hk
    have hn0 : (0 : K) < n := by exact_mod_cast (by omega : 0 < n)
    have hk' : (k : K) + 1 ≤ n := by exact_mod_cast hk
    have hk0 : (0 : K) ≤ k := Nat.cast_nonneg k
    refine ⟨by positivity, ?_⟩
    rw [div_lt_one (by positivity)]
    linarith
  refine ⟨fun x hx => ?_, fun i hi' k hk => ?_, ?_⟩
  · obtain ⟨i, k, h1, h2, h3⟩ := (mem_regularCandidates _ _ _ _ _).mp hx
    refine ⟨i, fun a => ?_, fun j hj => ?_, k, h2, fun a => by rw [h3 a, mul_one]⟩
    · have := hoff (k a) (h2 a)
      rw [h3 a]
      constructor <;> linarith
    · funext a
      have := hoff (k a) (h2 a)
      have hj' := hj a
      rw [h3 a] at hj'
      have a1 : (j a : K) < i a + 1 := by linarith
      have a2 : (i a : K) < j a + 1 := by linarith
      have a1 : j a < i a + 1 := by exact_mod_cast a1
      have a2 : i a < j a + 1 := by exact_mod_cast a2
      omega
  · obtain ⟨y, hy, hb⟩ := hi'
    refine (mem_regularCandidates _ _ _ _ _).mpr ⟨i, k, fun a => ?_, hk, fun a => by rw [mul_one]⟩
    have h1 := hy a
    have h2 := hb a
    rw [div_one, div_one]
    constructor
    · have : (⌊lo a⌋ : K) < i a + 1 := (Int.floor_le _).trans_lt (by linarith)
      have : ⌊lo a⌋ < i a + 1 := by exact_mod_cast this
      omega
    · rw [Int.lt_ceil]
      linarith
  · rw [regularCandidates, List.nodup_flatMap]
    have hlin : (linOffsets (K := K) n).Nodup := by
      refine List.nodup_range.map_on ?_
      intro a ha b hb e
      have hn0 : (0 : K) < n := by exact_mod_cast (by have := List.mem_range.mp ha; omega : 0 < n)
      rw [div_left_inj' (by positivity)] at e
      have : (a : K) = b := by linarith
      exact_mod_cast this
    have harange : ∀ s e : ℤ, (arange s e).Nodup := by
      intro s e
      refine List.nodup_range.map fun a b h => ?_
      simpa using h
    refine ⟨fun o _ => ?_, ?_⟩
    · refine (nodup_meshPts _ _ fun _ => hlin).map fun f g e => ?_
      funext a
      have := congrFun e a
      simpa using this
    · refine List.Pairwise.map _ (R := fun (i j : Fin dim → ℤ) => i ≠ j) ?_ (nodup_meshPts _ _ fun a => harange _ _)
      intro i j hij
      rw [Function.onFun, List.disjoint_left]
      intro x hx hx'
      obtain ⟨f, hf, rfl⟩ := List.mem_map.mp hx
      obtain ⟨g, hg, e⟩ := List.mem_map.mp hx'
      apply hij
      funext a
      have hf' := (mem_meshPts _ _ _).mp hf a
      have hg' := (mem_meshPts _ _ _).mp hg a
      obtain ⟨k, hk, hk'⟩ := List.mem_map.mp hf'
      obtain ⟨l, hl, hl'⟩ := List.mem_map.mp hg'
      have b1 := hoff k (List.mem_range.mp hk)
      have b2 := hoff l (List.mem_range.mp hl)
      have e' := congrFun e a
      simp only [mul_one] at e'
      rw [← hk', ← hl'] at e'
      have a1 : (j a : K) < i a + 1 := by linarith
      have a2 : (i a : K) < j a + 1 := by linarith
      have a1 : j a < i a + 1 := by exact_mod_cast a1
      have a2 : i a < j a + 1 := by exact_mod_cast a2
      omega

/-- **C51** fails for cells of side at most 1/2: no cell keeps all of its points (the offsets are not scaled). -/
theorem regular_leaves_cell (lo hi : Fin dim → K) {h : K} (h1 : h ≤ 1 / 2) (ppc : ℕ) (hp : 0 < ptsPerDim dim ppc)
    (hd : 0 < dim) (i : Fin dim → ℤ) (hi' : ∀ a, ⌊lo a / h⌋ ≤ i a ∧ i a < ⌈hi a / h⌉) :
    ∃ k : Fin dim → ℕ, (∀ a, k a < ptsPerDim dim ppc) ∧
      (fun a => (i a : K) * h + (2 * k a + 1) / (2 * ptsPerDim dim ppc)) ∈ regularCandidates lo hi h ppc ∧
      ¬ Spec.InCell h i fun a => (i a : K) * h + (2 * k a + 1) / (2 * ptsPerDim dim ppc) := by
  set n := ptsPerDim dim ppc with hn
  have hlt : n - 1 < n := by omega
  refine ⟨fun _ => n - 1, fun _ => hlt, (mem_regularCandidates _ _ _ _ _).mpr ⟨i, fun _ => n - 1, hi', fun _ => hlt,
    fun a => rfl⟩, fun hc => ?_⟩
  have := (hc ⟨0, hd⟩).2
  simp only [] at this
  have hn0 : (1 : K) ≤ n := by exact_mod_cast hp
  rw [Nat.cast_sub (by omega), Nat.cast_one] at this
  have h2 : (1 : K) / 2 ≤ (2 * ((n : K) - 1) + 1) / (2 * n) := by
    rw [div_le_div_iff₀ (by norm_num) (by linarith)]
    linarith
  linarith

end

set_option maxRecDepth 100000 in
/-- **C51** fails: with cells of side 1/4 and four points per cell, particles of a body filling the unit square coincide,
and no particle is put into the first cell. -/
theorem regular_overlaps : ∃ l, generateParticles (fun _ : Fin 2 → ℚ => -1) ![0, 0] ![1, 1] (.regular (1 / 4) 4) = .ok l ∧
    ¬ l.Nodup ∧ ∀ x ∈ l, ¬ Spec.InCell (1 / 4 : ℚ) (fun _ => 0) x := by
  refine ⟨_, rfl, by decide +kernel, fun x hx hc => ?_⟩
  have h := (mem_regularCandidates _ _ _ _ _).mp (List.mem_filter.mp hx).1
  obtain ⟨i, k, h1, -, h3⟩ := h
  have e1 := (h1 0).1
  have e2 := h3 0
  have e3 := (hc 0).2
  have hn : ptsPerDim 2 4 = 2 := by decide
  have hf : ⌊(![0, 0] : Fin 2 → ℚ) 0 / (1 / 4)⌋ = 0 := by simp
  rw [hf] at e1
  rw [hn] at e2
  have e1 : (0 : ℚ) ≤ i 0 := by exact_mod_cast e1
  have hk : (0 : ℚ) ≤ k 0 := Nat.cast_nonneg _
  rw [e2] at e3
  norm_num at e3
  linarith

/-- The default mode, the documented mode "rejection" and the mode "gauss_legendre" never return. -/
theorem generate_modes_fail {K : Type*} [Field K] [LinearOrder K] [FloorRing K] {dim : ℕ} (dist : (Fin dim → K) → K)
    (lo hi : Fin dim → K) (h : K) (ppc : ℕ) :
    (∀ l, generateParticles dist lo hi .other ≠ .ok l) ∧ ∀ l, generateParticles dist lo hi (.gaussLegendre h ppc) ≠ .ok l :=
  ⟨fun _ h => by simp [generateParticles] at h, fun _ h => by simp [generateParticles] at h⟩

end Hydrax
