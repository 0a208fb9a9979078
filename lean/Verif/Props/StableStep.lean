import Verif.Lemmas.Kick
import Verif.Props.Accuracy
import Verif.Props.Elastic

/-!
# Property C154: the energy and the strain that a step can make out of stress

With steps in proportion to the cell size over the speed of sound, the stresses of a body can give it in one
step only a fixed multiple of their energy, and can strain it only by a fixed multiple of that, wherever the points
lie in the cells.
-/

set_option linter.unusedSectionVars false

namespace Hydrax
open Spec

section
variable {z : Sz} {K : Type*} [Field K] [LinearOrder K] [IsStrictOrderedRing K] [FloorRing K] {dim : ℕ}
  {SS LS : Type*} {fn : MathFns K} {sv : Solver z K dim SS LS (ForceState K dim)} {n : ℕ}

/-- Energy of the stresses of a body of modulus `E`. -/
def Spec.stressEnergy (E : K) (s : MPState K dim n) : K := ∑ p, s.volume p * normSq (s.stress p) / (2 * E)

/-- Energy of the strain that a body of modulus `E` and volumes `V` gets in a step of length `dt` with velocity gradients `L`. -/
def Spec.strainEnergy (E dt : K) (V : Fin n → K) (L : Fin n → Matrix (Fin 3) (Fin 3) K) : K :=
  ∑ p, V p * (E / 2 * normSq (dt • L p))

/-- A step is at most `cfl` times the time in which a wave of speed `sqrt (E / rho)` crosses a cell. -/
def Spec.CflStep (cfl E h dt : K) (s : MPState K dim n) : Prop :=
  ∀ q, 0 ≤ s.volume q ∧ dt ^ 2 * (E * s.volume q) ≤ (cfl * h) ^ 2 * s.mass q

/-- Factor of a kernel per dimension. -/
def Spec.gain : Kernel → K
  | .linear => 0
  | .quadratic => 6
  | .cubic => 9

theorem gain_eq (ker : Kernel) : (steep ker * winLen ker : K) = gain ker := by
  cases ker <;> norm_num [steep, winLen, gain, window1d]

theorem gain_nonneg (ker : Kernel) : 0 ≤ (gain ker : K) := by cases ker <;> norm_num [gain]

theorem nodeVel_split (cut m a b : K) : nodeVel cut m (a + b) = nodeVel cut m a + nodeVel cut m b := by
  unfold nodeVel
  split_ifs
  · rw [add_div]
  · simp

theorem normSq_nonneg (A : Matrix (Fin 3) (Fin 3) K) : 0 ≤ normSq A :=
  Finset.sum_nonneg fun _ _ => Finset.sum_nonneg fun _ _ => sq_nonneg _

theorem normSq_smul (t : K) (A : Matrix (Fin 3) (Fin 3) K) : normSq (t • A) = t ^ 2 * normSq A := by
  simp only [normSq, Finset.mul_sum, Matrix.smul_apply, smul_eq_mul, mul_pow]

/-- Size of the stored velocity gradient. -/
theorem g2p_normSq {w : ℕ} {c : InteractionCache K n w} (hdim : dim = 2 ∨ dim = 3) (alpha dt : K)
    (gr : GridArrays K dim) (s : MPState K dim n) (p : Fin n) :
    normSq ((g2pBody alpha dt c none gr s).L p) = ∑ a, ∑ b : Fin 3, pointSum c (fun i => c.shapeGrad i b *
      nodeVel uslCutoff (gr.mass (c.nodeHash i)) (gr.momentNt (c.nodeHash i) a)) p ^ 2 := by
  have hneg : ∀ u : Fin (n * w) → K, pointSum c (fun i => -u i) p = - pointSum c u p := by
    intro u; simp [pointSum]
  have hL : ∀ (b k : Fin 3), (g2pBody alpha dt c none gr s).L p b k = - if h : k.val < dim then
      pointSum c (fun i => c.shapeGrad i b * nodeVel uslCutoff (gr.mass (c.nodeHash i)) (gr.momentNt (c.nodeHash i) ⟨k.val, h⟩)) p
      else 0 := by
    intro b k
    have hp : pointSum c (fun i => c.shapeGrad i b * -(pad3 (fun a => nodeVel uslCutoff (gr.mass (c.nodeHash i))
        (gr.momentNt (c.nodeHash i) a)) k)) p = - if h : k.val < dim then
      pointSum c (fun i => c.shapeGrad i b * nodeVel uslCutoff (gr.mass (c.nodeHash i)) (gr.momentNt (c.nodeHash i) ⟨k.val, h⟩)) p
      else 0 := by
      by_cases hk : k.val < dim
      · simp only [pad3, dif_pos hk, mul_neg, hneg]
      · simp [pad3, hk, pointSum]
    rw [← hp]
    rcases hdim with rfl | rfl
    · simp only [g2pBody, ghostBlend, ↓reduceIte, set22]
      split_ifs with h
      · obtain ⟨rfl, rfl⟩ := h
        simp [pad3, pointSum]
      · rfl
    · simp [g2pBody, ghostBlend]
  simp only [normSq, hL]
  rcases hdim with rfl | rfl
  · simp [Fin.sum_univ_three, Fin.sum_univ_two]; ring
  · simp [Fin.sum_univ_three]; ring

theorem young {ε u k : K} (hε : 0 < ε) : 2 * (u * k) ≤ ε * u ^ 2 + 1 / ε * k ^ 2 := by
  have h : 0 ≤ 1 / ε * (ε * u - k) ^ 2 := mul_nonneg (by positivity) (sq_nonneg _)
  have e : 1 / ε * (ε * u - k) ^ 2 = ε * u ^ 2 - 2 * (u * k) + 1 / ε * k ^ 2 := by field_simp; ring
  linarith

/-- **C154**: quadratic and cubic kernels, any blend, any arrangement of points. In a step without loads the kinetic energy of a body that
has its grid to itself grows at most by the share `ε` and by a fixed multiple of the energy of its stresses, and the strain of the step
holds at most a fixed multiple of both. -/
theorem step_tamed_partial (hdim : dim = 2 ∨ dim = 3) (hforces : sv.forces = []) (hL : ∀ c, (sv.laws c).OnlyStress)
    (h0 : 0 ≤ sv.alpha) (h1 : sv.alpha ≤ 1) (hown : OwnGrids sv.couplings)
    {st st' : SimState z K dim SS LS (ForceState K dim)} (h : uslCall fn sv st = .ok st') {cut : K} (hr : Regular cut sv st.world)
    (c : Coupling z) (hc : c ∈ sv.couplings) (hs : c.skip = false) (hker : c.ker ≠ .linear) {E cfl : K} (hE : 0 < E) :
    ∃ s s', st.world.bodies c.p = .deformable s ∧ st'.world.bodies c.p = .deformable s' ∧
      (CflStep cfl E (sv.domains c.g).cellSize st.dt s → ∀ ε, 0 < ε →
        let R := cfl ^ 2 * (dim * gain c.ker)
        let B := (1 + ε) * bodyKE (.deformable s) + (1 + 1 / ε) * (R * stressEnergy E s)
        bodyKE (.deformable s') ≤ B ∧ strainEnergy E st.dt s.volume s'.L ≤ R * B) := by
  obtain ⟨grids, f, x3, x4, S⟩ := usl_stages [] hdim (hforces.trans rfl) h hr
  have hlaw := (law_fold hL st.dt sv.couplings x3 x4 S.law).2
  have hcut : (0 : K) ≤ uslCutoff := by unfold uslCutoff; positivity
  obtain ⟨s, e1, hgc, hm, e2⟩ := S.body c hc hs
  have hl := hlaw c.p
  rw [e2, ← S.world'] at hl
  cases hb : st'.world.bodies c.p with
  | rigid _ => rw [hb] at hl; exact hl.elim
  | deformable s' =>
  have hKE : bodyKE (.deformable s') = bodyKE (.deformable (g2pBody sv.alpha st.dt
      (compute c.ker (sv.domains c.g) s.position) none (grids c.g) (resetBody s))) := by
    rw [← hb]; exact bodyKE_rel hl
  rw [hb] at hl
  obtain ⟨-, -, -, l4⟩ := hl
  refine ⟨s, s', e1, rfl, fun hcfl ε hε => ?_⟩
  obtain ⟨o, e, k, pad, hk0, hpad, hdom, hx⟩ := hr.box c hc hs
  rw [e1] at hx
  have hcell : (sv.domains c.g).cellSize = k := by rw [hdom]; rfl
  set ic := compute c.ker (sv.domains c.g) s.position with hic
  set κ : K := dim * gain c.ker / k ^ 2 with hκdef
  have hκ0 : 0 ≤ κ := div_nonneg (mul_nonneg (Nat.cast_nonneg _) (gain_nonneg _)) (sq_nonneg _)
  have hκ : ∀ p, pointSum ic (gradRatio ic) p ≤ κ := by
    intro p
    have := compute_gradRatio hker hdim o e k hk0 pad hpad s.position p (hx p)
    rw [gain_eq] at this
    rw [hic, hdom]
    exact this
  have hown' : ∀ b ∈ sv.couplings, b.skip = false → b.g = c.g → b = c := fun b hb' hbs e => hown b hb' c hc hbs hs e
  have hnd : sv.couplings.Nodup := List.Nodup.of_map _ hr.single
  have hmass : ∀ j, (grids c.g).mass j = nodeMass ic s.mass j := by
    intro j
    rw [S.mass, gridSum_own sv.couplings hnd hown _ c hc hs, e1]
    rfl
  have hmom : ∀ j a, (grids c.g).moment j a = scatterAdd ic.nodeHash (fun i => ic.shapeVal i * s.mass (ic.pointId i) *
      s.velocity (ic.pointId i) a) j := by
    intro j a
    rw [S.moment, gridSum_own sv.couplings hnd hown _ c hc hs, e1]
    rfl
  have hfor : ∀ j a, (grids c.g).force j a = (p2gBody ic (resetBody s) GridArrays.new).force j a := by
    intro j a
    rw [S.force, S.internal c hc hs hown' s e1]
    have hz : gridAccel st.mech.forces [] c.g a = 0 := by simp [gridAccel]
    rw [hz, mul_zero, add_zero]
  let M : ℕ → K := nodeMass ic s.mass
  let U : ℕ → Fin dim → K := fun j a => nodeVel uslCutoff (M j) ((grids c.g).moment j a)
  let V : ℕ → Fin dim → K := fun j a => nodeVel uslCutoff (M j) ((p2gBody ic (resetBody s) GridArrays.new).force j a * st.dt)
  have hM0 : ∀ j, 0 ≤ M j := fun j => nodeMass_nonneg hgc s.mass (fun q => (hm q).le) j
  have hW : ∀ j a, nodeVel uslCutoff ((grids c.g).mass j) ((grids c.g).momentNt j a) = U j a + V j a := by
    intro j a
    simp only [S.momentNt c hc hs, hmass, hfor, nodeVel_split]
    rfl
  -- energy of the kick
  have hV : ∑ j ∈ Finset.range (sv.domains c.g).numCells, ∑ a, M j * V j a ^ 2 ≤
      2 * (cfl ^ 2 * (dim * gain c.ker) * stressEnergy E s) := by
    refine (kick_le hgc hdim (resetBody s) hm rfl hκ st.dt uslCutoff hcut).trans ?_
    rw [stressEnergy, Finset.mul_sum, Finset.mul_sum, Finset.mul_sum]
    refine Finset.sum_le_sum fun p _ => ?_
    obtain ⟨hv0, hv⟩ := hcfl p
    have hmp := hm p
    change st.dt ^ 2 * κ * (s.volume p ^ 2 / s.mass p * normSq (s.stress p)) ≤ _
    have hg : (0 : K) ≤ dim * gain c.ker := mul_nonneg (Nat.cast_nonneg _) (gain_nonneg _)
    have key : st.dt ^ 2 / k ^ 2 * (s.volume p ^ 2 / s.mass p) ≤ cfl ^ 2 * (s.volume p / E) := by
      rw [hcell, mul_pow] at hv
      have h3 := mul_le_mul_of_nonneg_right hv (show 0 ≤ s.volume p / (E * s.mass p * k ^ 2) by positivity)
      have e3 : st.dt ^ 2 * (E * s.volume p) * (s.volume p / (E * s.mass p * k ^ 2)) = st.dt ^ 2 / k ^ 2 * (s.volume p ^ 2 / s.mass p) := by
        field_simp
      have e4 : cfl ^ 2 * k ^ 2 * s.mass p * (s.volume p / (E * s.mass p * k ^ 2)) = cfl ^ 2 * (s.volume p / E) := by
        field_simp
      rw [e3, e4] at h3
      exact h3
    have h4 := mul_le_mul_of_nonneg_right (mul_le_mul_of_nonneg_left key hg) (normSq_nonneg (s.stress p))
    refine le_trans (le_of_eq ?_) (h4.trans (le_of_eq ?_))
    · rw [hκdef]; field_simp
    · field_simp
  -- energy before the kick
  have hU : ∑ j ∈ Finset.range (sv.domains c.g).numCells, ∑ a, 1 / 2 * (M j * U j a ^ 2) ≤ bodyKE (.deformable s) := by
    have := p2g_ke hgc s (fun q => (hm q).le) uslCutoff hcut
    refine le_trans (le_of_eq ?_) this
    unfold gridKE
    refine Finset.sum_congr rfl fun j _ => ?_
    rw [Finset.mul_sum]
    refine Finset.sum_congr rfl fun a _ => ?_
    simp only [U, hmom, p2g_mass hgc, p2g_moment hgc, M]
    simp only [GridArrays.new, zero_add]
    ring
  set A := ∑ j ∈ Finset.range (sv.domains c.g).numCells, ∑ a, 1 / 2 * (M j * U j a ^ 2) with hA
  set C := ∑ j ∈ Finset.range (sv.domains c.g).numCells, ∑ a, M j * V j a ^ 2 with hC
  have hA0 : 0 ≤ A := Finset.sum_nonneg fun j _ => Finset.sum_nonneg fun a _ => mul_nonneg (by norm_num) (mul_nonneg (hM0 j) (sq_nonneg _))
  have hyoung : ∀ j a, M j * (U j a * V j a) ≤ ε * (1 / 2 * (M j * U j a ^ 2)) + 1 / ε * (1 / 2 * (M j * V j a ^ 2)) := by
    intro j a
    have := mul_le_mul_of_nonneg_left (young (u := U j a) (k := V j a) hε) (hM0 j)
    linarith
  have hcross : ∑ j ∈ Finset.range (sv.domains c.g).numCells, ∑ a, M j * (U j a * V j a) ≤ ε * A + 1 / ε * (1 / 2 * C) := by
    rw [hA, hC]
    simp only [Finset.mul_sum]
    rw [← Finset.sum_add_distrib]
    refine Finset.sum_le_sum fun j _ => ?_
    rw [← Finset.sum_add_distrib]
    exact Finset.sum_le_sum fun a _ => hyoung j a
  set X := ∑ j ∈ Finset.range (sv.domains c.g).numCells, ∑ a, M j * (U j a * V j a) with hX
  have hepos : (0 : K) < 1 / ε := by positivity
  intro R B
  have hR0 : 0 ≤ R := mul_nonneg (sq_nonneg _) (mul_nonneg (Nat.cast_nonneg _) (gain_nonneg _))
  have hB : (1 + ε) * A + (1 + 1 / ε) * (1 / 2 * C) ≤ B := by
    have := mul_le_mul_of_nonneg_left hU (by positivity : 0 ≤ 1 + ε)
    have := mul_le_mul_of_nonneg_left hV (by positivity : 0 ≤ 1 + 1 / ε)
    simp only [B, R]
    linarith
  constructor
  · rw [hKE]
    refine (g2p_energy hgc h0 h1 st.dt (grids c.g) (resetBody s) hm).trans ?_
    have e5 : ∑ j ∈ Finset.range (sv.domains c.g).numCells, ∑ a, ((1 - sv.alpha) * (nodeMass ic s.mass j * (1 / 2 *
          nodeVel uslCutoff ((grids c.g).mass j) ((grids c.g).momentNt j a) ^ 2)) +
        sv.alpha * (scatterAdd ic.nodeHash (fun i => ic.shapeVal i * s.mass (ic.pointId i) * s.velocity (ic.pointId i) a) j *
          (nodeVel uslCutoff ((grids c.g).mass j) ((grids c.g).momentNt j a) - nodeVel uslCutoff ((grids c.g).mass j) ((grids c.g).moment j a)) +
          nodeMass ic s.mass j * (1 / 2 * (nodeVel uslCutoff ((grids c.g).mass j) ((grids c.g).momentNt j a) -
            nodeVel uslCutoff ((grids c.g).mass j) ((grids c.g).moment j a)) ^ 2))) = (1 - sv.alpha) * A + X + 1 / 2 * C := by
      rw [hA, hC, hX]
      simp only [Finset.mul_sum]
      rw [← Finset.sum_add_distrib, ← Finset.sum_add_distrib]
      refine Finset.sum_congr rfl fun j _ => ?_
      rw [← Finset.sum_add_distrib, ← Finset.sum_add_distrib]
      refine Finset.sum_congr rfl fun a _ => ?_
      have e6 : nodeVel uslCutoff ((grids c.g).mass j) ((grids c.g).moment j a) = U j a := by rw [hmass]
      have e7 : scatterAdd ic.nodeHash (fun i => ic.shapeVal i * s.mass (ic.pointId i) * s.velocity (ic.pointId i) a) j * V j a =
          M j * (U j a * V j a) := by
        by_cases hcj : M j > uslCutoff
        · have h2 : M j * U j a = (grids c.g).moment j a := mul_nodeVel hcj (lt_of_le_of_lt hcut hcj)
          rw [← hmom, ← h2]; ring
        · have : V j a = 0 := by simp only [V]; unfold nodeVel; rw [if_neg hcj]
          rw [this]; ring
      rw [hW, e6, add_sub_cancel_left, e7]
      change (1 - sv.alpha) * (M j * _) + sv.alpha * (_ + M j * _) = _
      ring
    have e8 : bodyKE (.deformable (resetBody s)) = bodyKE (.deformable s) := rfl
    change sv.alpha * bodyKE (.deformable (resetBody s)) + (∑ j ∈ Finset.range (sv.domains c.g).numCells, ∑ a, _) ≤ B
    rw [e8]
    refine le_trans (add_le_add le_rfl (le_of_eq e5)) ?_
    have h6 := mul_le_mul_of_nonneg_left hU h0
    have h7 := mul_le_mul_of_nonneg_left hU (sub_nonneg.mpr h1)
    have h8 : ε * A ≤ ε * bodyKE (.deformable s) := mul_le_mul_of_nonneg_left hU hε.le
    have h9 := mul_le_mul_of_nonneg_left hV (by positivity : 0 ≤ 1 + 1 / ε)
    simp only [B, R]
    linarith
  · have hs1 := strain_le hgc s.mass (fun q => (hm q).le) hκ (fun j a => U j a + V j a)
    have hs2 : ∑ j ∈ Finset.range (sv.domains c.g).numCells, ∑ a, nodeMass ic s.mass j * (U j a + V j a) ^ 2 ≤ 2 * B := by
      have e9 : ∑ j ∈ Finset.range (sv.domains c.g).numCells, ∑ a, nodeMass ic s.mass j * (U j a + V j a) ^ 2 = 2 * A + 2 * X + C := by
        rw [hA, hC, hX]
        simp only [Finset.mul_sum]
        rw [← Finset.sum_add_distrib, ← Finset.sum_add_distrib]
        refine Finset.sum_congr rfl fun j _ => ?_
        rw [← Finset.sum_add_distrib, ← Finset.sum_add_distrib]
        refine Finset.sum_congr rfl fun a _ => ?_
        change M j * _ = _
        ring
      rw [e9]
      linarith
    have hs3 : ∀ p, normSq (s'.L p) = ∑ a, ∑ b : Fin 3, pointSum ic (fun i => ic.shapeGrad i b *
        (U (ic.nodeHash i) a + V (ic.nodeHash i) a)) p ^ 2 := by
      intro p
      rw [l4, g2p_normSq hdim]
      simp only [hW]
    have hs4 : strainEnergy E st.dt s.volume s'.L ≤ (cfl * k) ^ 2 / 2 * ∑ p, s.mass p * normSq (s'.L p) := by
      unfold strainEnergy
      rw [Finset.mul_sum]
      refine Finset.sum_le_sum fun p _ => ?_
      obtain ⟨-, hv⟩ := hcfl p
      rw [hcell] at hv
      rw [normSq_smul]
      have := mul_le_mul_of_nonneg_right hv (normSq_nonneg (s'.L p))
      linarith
    refine hs4.trans ?_
    simp only [hs3]
    have hq : 0 ≤ (cfl * k) ^ 2 / 2 := by positivity
    refine (mul_le_mul_of_nonneg_left (hs1.trans (mul_le_mul_of_nonneg_left hs2 hκ0)) hq).trans (le_of_eq ?_)
    simp only [R, hκdef]
    field_simp

theorem le_of_shares {X G : K} (hG : 0 ≤ G) (h : ∀ ε, 0 < ε → X ≤ (1 + 1 / ε) * G) : X ≤ G := by
  by_contra hn
  push Not at hn
  have hd : 0 < X - G := by linarith
  have := h ((G + 1) / (X - G)) (by positivity)
  rw [one_div_div] at this
  have h2 : (X - G) / (G + 1) * G < X - G := by
    rw [div_mul_eq_mul_div, div_lt_iff₀ (by linarith)]
    nlinarith
  linarith

/-- **C154**, from rest: the energy that the body gains is at most `cfl^2 dim 6` (quadratic) or `cfl^2 dim 9` (cubic) times the energy of
its stresses, and the energy of the strain of the step at most the square of this factor, so that no step overshoots when the factor is
below one. -/
theorem rest_tamed_partial (hdim : dim = 2 ∨ dim = 3) (hforces : sv.forces = []) (hL : ∀ c, (sv.laws c).OnlyStress)
    (h0 : 0 ≤ sv.alpha) (h1 : sv.alpha ≤ 1) (hown : OwnGrids sv.couplings)
    {st st' : SimState z K dim SS LS (ForceState K dim)} (h : uslCall fn sv st = .ok st') {cut : K} (hr : Regular cut sv st.world)
    (c : Coupling z) (hc : c ∈ sv.couplings) (hs : c.skip = false) (hker : c.ker ≠ .linear) {E cfl : K} (hE : 0 < E) :
    ∃ s s', st.world.bodies c.p = .deformable s ∧ st'.world.bodies c.p = .deformable s' ∧
      (CflStep cfl E (sv.domains c.g).cellSize st.dt s → (∀ q a, s.velocity q a = 0) →
        let R := cfl ^ 2 * (dim * gain c.ker)
        bodyKE (.deformable s') ≤ R * stressEnergy E s ∧ strainEnergy E st.dt s.volume s'.L ≤ R ^ 2 * stressEnergy E s) := by
  obtain ⟨s, s', e1, e2, key⟩ := step_tamed_partial hdim hforces hL h0 h1 hown h hr c hc hs hker (cfl := cfl) hE
  refine ⟨s, s', e1, e2, fun hcfl hv => ?_⟩
  intro R
  have hR0 : 0 ≤ R := mul_nonneg (sq_nonneg _) (mul_nonneg (Nat.cast_nonneg _) (gain_nonneg _))
  have hG : 0 ≤ stressEnergy E s := Finset.sum_nonneg fun p _ =>
    div_nonneg (mul_nonneg (hcfl p).1 (normSq_nonneg _)) (by linarith)
  have hke : bodyKE (.deformable s) = 0 := by
    simp [bodyKE, hv]
  refine ⟨le_of_shares (mul_nonneg hR0 hG) fun ε hε => ?_, le_of_shares (mul_nonneg (sq_nonneg _) hG) fun ε hε => ?_⟩
  · have := (key hcfl ε hε).1
    rw [hke, mul_zero, zero_add] at this
    exact this
  · have := (key hcfl ε hε).2
    rw [hke, mul_zero, zero_add] at this
    refine this.trans (le_of_eq ?_)
    simp only [R]
    ring

end

/-- Steps up to the critical step reported by `get_dt_crit` with modulus `E` and safety factor `cfl` meet the condition (elastic law:
`E = K + 4/3 G`, fluid: `K beta`, mu(I): `K`). -/
theorem dt_crit_cfl {dim n : ℕ} (hn : 0 < n) {E cfl h : ℝ} (hE : 0 < E) (hcfl : 0 < cfl) (hh : 0 < h) (s : MPState ℝ dim n)
    (hm : ∀ p, 0 < s.mass p) (hv : ∀ p, 0 < s.volume p) :
    ∃ r, 0 < r ∧ dtCrit realFns (fun p => Real.sqrt (E / (s.mass p / s.volume p))) s.velocity h cfl = .ok r ∧
      ∀ dt, 0 ≤ dt → dt ≤ r → CflStep cfl E h dt s := by
  obtain ⟨r, h1, h2, h3, -, -⟩ := dtCrit_bound hn (fun p => Real.sqrt (E / (s.mass p / s.volume p))) (fun _ => Real.sqrt_nonneg _)
    s.velocity h cfl hh hcfl
  refine ⟨r, h2, h1, fun dt hd hdr q => ⟨(hv q).le, ?_⟩⟩
  have hmq := hm q
  have hvq := hv q
  set c := Real.sqrt (E / (s.mass q / s.volume q)) with hc
  have hc0 : 0 ≤ c := Real.sqrt_nonneg _
  have hc2 : c ^ 2 = E * s.volume q / s.mass q := by
    rw [hc, Real.sq_sqrt (by positivity)]; field_simp
  have hb : dt * c ≤ cfl * h := by
    have h4 := h3 q
    have h5 : 0 ≤ Real.sqrt (∑ a, s.velocity q a ^ 2) := Real.sqrt_nonneg _
    have h6 : r * c ≤ cfl * h := le_trans (by nlinarith) h4
    exact le_trans (mul_le_mul_of_nonneg_right hdr hc0) h6
  have h7 : (dt * c) ^ 2 ≤ (cfl * h) ^ 2 := pow_le_pow_left₀ (mul_nonneg hd hc0) hb 2
  rw [mul_pow, hc2] at h7
  have h8 := mul_le_mul_of_nonneg_right h7 hmq.le
  have e : dt ^ 2 * (E * s.volume q / s.mass q) * s.mass q = dt ^ 2 * (E * s.volume q) := by field_simp
  rw [e] at h8
  exact h8

example : ∃ r, 0 < r ∧ dtCrit realFns (fun _ : Fin 1 => Real.sqrt (1000 / (1 / 1))) (pointAt 0).velocity (1 / 2) (1 / 4) = .ok r ∧
    ∀ dt, 0 ≤ dt → dt ≤ r → CflStep (1 / 4) 1000 (1 / 2) dt (pointAt 0) :=
  dt_crit_cfl one_pos (by norm_num) (by norm_num) (by norm_num) (pointAt 0) (fun _ => by norm_num [pointAt]) (fun _ => by norm_num [pointAt])

/-! ### Linear kernels -/

/-- A point under a small stress a millionth of the box away from a node, on a grid of cells of size one half. -/
def edgePoint : MPState ℚ 2 1 :=
  MPState.create
    { position := ![![1 / 10 ^ 6, 1 / 4]]
      mass := some ![1]
      volume := some ![1]
      stress := some fun _ => !![1 / 1000, 0, 0; 0, 0, 0; 0, 0, 0] }

def edgeSt : SimState { exSz with np := fun _ => 1 } ℚ 2 Unit (LawState ℚ) (ForceState ℚ 2) :=
  { world := { bodies := fun _ => .deformable edgePoint, sdfs := Fin.elim0 }
    mech := { laws := fun _ => .elastic fun _ => 0, solvers := fun _ _ => 0, forces := [] }
    time := 0
    step := 0
    dt := 1 / 20 }

def edgeSv (ker : Kernel) : Solver { exSz with np := fun _ => 1 } ℚ 2 Unit (LawState ℚ) (ForceState ℚ 2) :=
  { alpha := 1
    domains := fun _ => GridDomain.create (fun _ => 0) (fun _ => 1) (1 / 2) 2
    couplings := [{ ker := ker, p := (0 : Fin 1), g := (0 : Fin 1), c := (0 : Fin 1), s := (0 : Fin 1), skip := false }]
    laws := fun _ => elasticLaw 1 0 false
    forces := []
    sdfs := Fin.elim0
    sharpness := 10 }

def bodyStrain (b : Body ℚ 2 1) : ℚ :=
  match b with
  | .deformable s' => strainEnergy 1 (1 / 20) edgePoint.volume s'.L
  | .rigid _ => 0

set_option maxRecDepth 100000 in
theorem edge_eval : (uslCall ratFns (edgeSv .linear) edgeSt).isOk = true ∧
    checkOk (uslCall ratFns (edgeSv .linear) edgeSt) (fun s =>
      decide (10 ^ 6 * stressEnergy 1 edgePoint < bodyStrain (s.world.bodies (0 : Fin 1)))) = true := by decide +kernel

/-- **C154** is false for linear kernels: a point at rest, close to the edge of a cell, gets in a step of a tenth of the time in which waves
cross the cell a strain of more than a million times the energy of its stress. -/
theorem linear_step_untamed : ∃ st' s', uslCall ratFns (edgeSv .linear) edgeSt = .ok st' ∧
    edgeSt.world.bodies (0 : Fin 1) = .deformable edgePoint ∧ st'.world.bodies (0 : Fin 1) = .deformable s' ∧
    CflStep (1 / 10) 1 (1 / 2) edgeSt.dt edgePoint ∧ (∀ q a, edgePoint.velocity q a = 0) ∧
    10 ^ 6 * stressEnergy 1 edgePoint < strainEnergy 1 edgeSt.dt edgePoint.volume s'.L := by
  obtain ⟨st', h⟩ := isOk_ok edge_eval.1
  have h2 := checkOk_ok edge_eval.2 st' h
  have h3 : 10 ^ 6 * stressEnergy 1 edgePoint < bodyStrain (st'.world.bodies (0 : Fin 1)) := by simpa using h2
  cases hb : st'.world.bodies (0 : Fin 1) with
  | rigid _ =>
    rw [hb] at h3
    exact absurd h3 (not_lt.mpr (mul_nonneg (by norm_num) (Finset.sum_nonneg fun p _ => by
      refine div_nonneg (mul_nonneg ?_ (normSq_nonneg _)) (by norm_num)
      fin_cases p; norm_num [edgePoint, MPState.create])))
  | deformable s' =>
    rw [hb] at h3
    refine ⟨st', s', h, rfl, hb, fun q => ?_, fun q a => ?_, h3⟩
    · fin_cases q; norm_num [edgePoint, MPState.create, edgeSt]
    · fin_cases q; simp [edgePoint, MPState.create]

theorem edge_regular (ker : Kernel) : Regular 0 (edgeSv ker) edgeSt.world where
  single := by simp [edgeSv]
  box c hc _ := ⟨_, _, _, _, by norm_num, le_rfl, rfl, fun q d => by
    change 0 ≤ edgePoint.position q d ∧ edgePoint.position q d ≤ 1
    fin_cases q; fin_cases d <;> norm_num [edgePoint, MPState.create]⟩
  mass_pos c hc _ s hb q := by
    cases hb
    fin_cases q; norm_num [edgePoint, MPState.create]
  cutoff g j h0 := h0

set_option maxRecDepth 100000 in
theorem edge_ok : (uslCall ratFns (edgeSv .quadratic) edgeSt).isOk = true := by decide +kernel

/-- `rest_tamed_partial` on the same point with quadratic kernels. -/
example : ∃ st' s', uslCall ratFns (edgeSv .quadratic) edgeSt = .ok st' ∧ st'.world.bodies (0 : Fin 1) = .deformable s' ∧
    strainEnergy 1 edgeSt.dt edgePoint.volume s'.L ≤ (12 / 100) ^ 2 * stressEnergy 1 edgePoint := by
  obtain ⟨st', h⟩ := isOk_ok edge_ok
  obtain ⟨s, s', e1, e2, key⟩ := rest_tamed_partial (.inl rfl) rfl (fun _ => LibLaw.onlyStress (.elastic 1 0 false))
    (by norm_num [edgeSv]) (by norm_num [edgeSv]) (fun b hb c hc _ _ _ => by
      simp only [edgeSv, List.mem_singleton] at hb hc
      rw [hb, hc]) h (edge_regular .quadratic)
    { ker := .quadratic, p := (0 : Fin 1), g := (0 : Fin 1), c := (0 : Fin 1), s := (0 : Fin 1), skip := false } (List.mem_singleton.2 rfl) rfl
    (by decide) (E := 1) (cfl := 1 / 10) one_pos
  have e1 := Body.deformable.inj e1
  subst e1
  obtain ⟨-, -, -, -, -, hcfl, hv, -⟩ := linear_step_untamed
  refine ⟨st', s', h, e2, (key hcfl hv).2.trans (le_of_eq ?_)⟩
  norm_num [gain]

end Hydrax
