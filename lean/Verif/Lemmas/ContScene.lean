import Verif.Lemmas.LatKernel
import Verif.Lemmas.KernelDeriv
import Verif.Lemmas.SceneGrid
import Verif.Lemmas.RealFns
import Verif.Model.LawTable
import Mathlib.Topology.Instances.Matrix
import Mathlib.Topology.Order.OrderClosed
import Mathlib.Analysis.SpecialFunctions.Pow.Continuity
import Mathlib.Analysis.SpecialFunctions.Sqrt

/-!
# Scenes depending continuously on a parameter (helper lemmas)
-/

set_option linter.unusedSectionVars false

namespace Hydrax

open Spec Filter Topology

/-! ### Kernels -/

theorem continuous_tpow (n : ℕ) : Continuous (tpow n : ℝ → ℝ) := (continuous_id.max continuous_const).pow n

theorem continuous_basis1 (ker : Kernel) : Continuous (basis1 ker : ℝ → ℝ) := by
  have : (basis1 ker : ℝ → ℝ) = bspline (degree ker) := funext (basis1_eq_bspline ker)
  rw [this]
  have ht := fun n (a : ℝ) => (continuous_tpow n).comp (continuous_id.add (continuous_const (y := a)))
  cases ker
  · have : (bspline 1 : ℝ → ℝ) = fun x => tpow 1 (x + 1) - 2 * tpow 1 x + tpow 1 (x - 1) := funext bspline1
    change Continuous (bspline 1 : ℝ → ℝ)
    rw [this]
    exact ((((continuous_tpow 1).comp (continuous_id.add continuous_const))).sub
      (continuous_const.mul (continuous_tpow 1))).add ((continuous_tpow 1).comp (continuous_id.sub continuous_const))
  · rw [← this]; exact continuous_iff_continuousAt.2 fun x => (hasDerivAt_basis1 .quadratic x (by simp)).continuousAt
  · rw [← this]; exact continuous_iff_continuousAt.2 fun x => (hasDerivAt_basis1 .cubic x (by simp)).continuousAt

theorem continuous_dbasis1 (c : ℝ) {ker : Kernel} (hk : ker ≠ .linear) : Continuous (dbasis1 c ker : ℝ → ℝ) := by
  have : (dbasis1 c ker : ℝ → ℝ) = fun x => c * dbasis1 1 ker x := funext (dbasis1_scale ker c)
  rw [this]
  refine continuous_const.mul ?_
  have ht := fun n (a : ℝ) => (continuous_tpow n).comp (continuous_id.add (continuous_const (y := a)))
  cases ker
  · exact absurd rfl hk
  · have : (dbasis1 1 .quadratic : ℝ → ℝ) = _ := funext quadraticDBasis_eq
    rw [this]
    exact (((ht 1 (3 / 2)).sub (continuous_const.mul (ht 1 (1 / 2)))).add (continuous_const.mul (ht 1 (-1 / 2)))).sub (ht 1 (-3 / 2))
  · have : (dbasis1 1 .cubic : ℝ → ℝ) = _ := funext cubicDBasis_eq
    rw [this]
    exact (((((ht 2 2).sub (continuous_const.mul (ht 2 1))).add (continuous_const.mul (ht 2 0))).sub
      (continuous_const.mul (ht 2 (-1)))).add (ht 2 (-2))).div_const 2

section
variable {T : Type*} [TopologicalSpace T] {t0 : T} {dim n : ℕ}

theorem cont_basePos (g : GridDomain ℝ dim) {x : T → Fin dim → ℝ} (hx : ∀ a, ContinuousAt (fun t => x t a) t0) (d : Fin dim) :
    ContinuousAt (fun t => basePos g (x t) d) t0 := ((hx d).sub continuousAt_const).mul continuousAt_const

theorem cont_nodeVal (ker : Kernel) (g : GridDomain ℝ dim) {x : T → Fin dim → ℝ} (hx : ∀ a, ContinuousAt (fun t => x t a) t0)
    (k : Fin dim → ℕ) : ContinuousAt (fun t => (nodeInter ker g (x t) k).shapeVal) t0 := by
  change ContinuousAt (fun t => ∏ d, basis1 ker (basePos g (x t) d - (k d : ℝ))) t0
  refine tendsto_finsetProd _ fun d _ => ?_
  exact (continuous_basis1 ker).continuousAt.comp (f := fun t => basePos g (x t) d - (k d : ℝ)) ((cont_basePos g hx d).sub continuousAt_const)

theorem cont_nodeGrad (hdim : dim = 2 ∨ dim = 3) {ker : Kernel} (hk : ker ≠ .linear) (g : GridDomain ℝ dim) {x : T → Fin dim → ℝ}
    (hx : ∀ a, ContinuousAt (fun t => x t a) t0) (k : Fin dim → ℕ) (i : Fin 3) :
    ContinuousAt (fun t => (nodeInter ker g (x t) k).shapeGrad i) t0 := by
  have hb : ∀ d, ContinuousAt (fun t => basis1 ker (basePos g (x t) d - (k d : ℝ))) t0 := fun d =>
    (continuous_basis1 ker).continuousAt.comp (f := fun t => basePos g (x t) d - (k d : ℝ)) ((cont_basePos g hx d).sub continuousAt_const)
  have hd : ∀ d, ContinuousAt (fun t => dbasis1 g.invCellSize ker (basePos g (x t) d - (k d : ℝ))) t0 := fun d =>
    (continuous_dbasis1 _ hk).continuousAt.comp (f := fun t => basePos g (x t) d - (k d : ℝ)) ((cont_basePos g hx d).sub continuousAt_const)
  by_cases hi : i.val < dim
  · have e : (fun t => (nodeInter ker g (x t) k).shapeGrad i) = fun t => ∏ d, if d = ⟨i.val, hi⟩ then
        dbasis1 g.invCellSize ker (basePos g (x t) d - (k d : ℝ)) else basis1 ker (basePos g (x t) d - (k d : ℝ)) := by
      funext t
      change pad3 _ i = _
      rw [pad3_lt _ i hi, tensorGrad_eq hdim]
    rw [e]
    refine tendsto_finsetProd _ fun d _ => ?_
    by_cases h : d = ⟨i.val, hi⟩
    · simp only [if_pos h]; exact hd d
    · simp only [if_neg h]; exact hb d
  · have e : (fun t => (nodeInter ker g (x t) k).shapeGrad i) = fun _ => 0 := by
      funext t
      exact pad3_ge _ i hi
    rw [e]; exact continuousAt_const

/-! ### Sums over interactions as sums over nodes -/

theorem scatter_nodes (hdim : dim = 2 ∨ dim = 3) (ker : Kernel) (g : GridDomain ℝ dim) (hg : ∀ d, 0 < g.gridSize d)
    (pos : Fin n → Fin dim → ℝ) (F : Fin n → Interaction ℝ → ℝ)
    (hF : ∀ p (I : Interaction ℝ), I.shapeVal = 0 → (I.shapeGrad = fun _ => 0) → F p I = 0) (j : ℕ) :
    scatterAdd (compute ker g pos).nodeHash (fun i => F i.divNat (computeSingle ker g (pos i.divNat) i.modNat.val)) j =
      ∑ p, ∑ k : GridIdx g.gridSize, if ravel dim g.gridSize (fun d => (k d : ℕ)) = j then F p (nodeInter ker g (pos p) fun d => k d) else 0 := by
  unfold scatterAdd
  rw [show (∑ i : Fin (n * windowSize ker dim), if (compute ker g pos).nodeHash i = j then
      F i.divNat (computeSingle ker g (pos i.divNat) i.modNat.val) else 0) = ∑ p : Fin n, ∑ s : Fin (windowSize ker dim),
      if (computeSingle ker g (pos p) s.val).nodeHash = j then F p (computeSingle ker g (pos p) s.val) else 0 from
    sum_interactions n (windowSize ker dim) (fun p s => if (computeSingle ker g (pos p) s.val).nodeHash = j then
      F p (computeSingle ker g (pos p) s.val) else 0)]
  refine Finset.sum_congr rfl fun p _ => ?_
  exact slot_sum hdim ker g hg (pos p) (fun I => if I.nodeHash = j then F p I else 0) (fun I h1 h2 => by
    simp only [hF p I h1 h2, ite_self])

theorem point_nodes (hdim : dim = 2 ∨ dim = 3) (ker : Kernel) (g : GridDomain ℝ dim) (hg : ∀ d, 0 < g.gridSize d)
    (pos : Fin n → Fin dim → ℝ) (F : Interaction ℝ → ℝ)
    (hF : ∀ (I : Interaction ℝ), I.shapeVal = 0 → (I.shapeGrad = fun _ => 0) → F I = 0) (p : Fin n) :
    pointSum (compute ker g pos) (fun i => F (computeSingle ker g (pos i.divNat) i.modNat.val)) p =
      ∑ k : GridIdx g.gridSize, F (nodeInter ker g (pos p) fun d => k d) := by
  rw [← slot_sum hdim ker g hg (pos p) F hF]
  unfold pointSum
  rw [Finset.sum_filter]
  exact sum_point_interactions n (windowSize ker dim) (fun q s => F (computeSingle ker g (pos q) s.val)) p

/-! ### Bodies and grids -/

namespace Spec

/-- The states of a body, depending on a parameter, vary continuously at `t0`. -/
structure MPCont (s : T → MPState ℝ dim n) (t0 : T) : Prop where
  position : ∀ q a, ContinuousAt (fun t => (s t).position q a) t0
  velocity : ∀ q a, ContinuousAt (fun t => (s t).velocity q a) t0
  force : ∀ q a, ContinuousAt (fun t => (s t).force q a) t0
  mass : ∀ q, ContinuousAt (fun t => (s t).mass q) t0
  volume : ∀ q, ContinuousAt (fun t => (s t).volume q) t0
  volume0 : ∀ q, ContinuousAt (fun t => (s t).volume0 q) t0
  L : ∀ q i j, ContinuousAt (fun t => (s t).L q i j) t0
  stress : ∀ q i j, ContinuousAt (fun t => (s t).stress q i j) t0
  F : ∀ q i j, ContinuousAt (fun t => (s t).F q i j) t0
  shape : ∀ t, (s t).volScalar = (s t0).volScalar

/-- The arrays of a grid vary continuously at `t0`. -/
structure GridCont (g : T → GridArrays ℝ dim) (t0 : T) : Prop where
  mass : ∀ j, ContinuousAt (fun t => (g t).mass j) t0
  moment : ∀ j a, ContinuousAt (fun t => (g t).moment j a) t0
  momentNt : ∀ j a, ContinuousAt (fun t => (g t).momentNt j a) t0
  force : ∀ j a, ContinuousAt (fun t => (g t).force j a) t0

end Spec

theorem cont_sum {ι : Type*} (s : Finset ι) {f : ι → T → ℝ} (h : ∀ i ∈ s, ContinuousAt (f i) t0) :
    ContinuousAt (fun t => ∑ i ∈ s, f i t) t0 := tendsto_finsetSum _ h

theorem cont_ite {P : Prop} [Decidable P] {f g : T → ℝ} (hf : ContinuousAt f t0) (hg : ContinuousAt g t0) :
    ContinuousAt (fun t => if P then f t else g t) t0 := by
  by_cases h : P
  · simpa only [if_pos h] using hf
  · simpa only [if_neg h] using hg

theorem cont_intern {σ : T → Mat3 ℝ} {v : T → Fin 3 → ℝ} (hσ : ∀ i j, ContinuousAt (fun t => σ t i j) t0)
    (hv : ∀ i, ContinuousAt (fun t => v t i) t0) (a : Fin dim) : ContinuousAt (fun t => internTerm dim (σ t) (v t) a) t0 := by
  unfold internTerm trunc3
  by_cases h : a.val < 3
  · simp only [dif_pos h]; exact cont_sum _ fun b _ => (hσ _ b).mul (hv b)
  · simp only [dif_neg h]; exact continuousAt_const

theorem internTerm_zero (σ : Mat3 ℝ) (a : Fin dim) : internTerm dim σ (fun _ => 0) a = 0 := by
  unfold internTerm trunc3
  split_ifs <;> simp

theorem cont_scatter (hdim : dim = 2 ∨ dim = 3) (ker : Kernel) (g : GridDomain ℝ dim) (hg : ∀ d, 0 < g.gridSize d)
    (pos : T → Fin n → Fin dim → ℝ) (F : T → Fin n → Interaction ℝ → ℝ)
    (hF : ∀ t p (I : Interaction ℝ), I.shapeVal = 0 → (I.shapeGrad = fun _ => 0) → F t p I = 0)
    (hc : ∀ p (k : GridIdx g.gridSize), ContinuousAt (fun t => F t p (nodeInter ker g (pos t p) fun d => k d)) t0) (j : ℕ) :
    ContinuousAt (fun t => scatterAdd (compute ker g (pos t)).nodeHash
      (fun i => F t i.divNat (computeSingle ker g (pos t i.divNat) i.modNat.val)) j) t0 := by
  simp only [fun t => scatter_nodes hdim ker g hg (pos t) (F t) (hF t) j]
  exact cont_sum _ fun p _ => cont_sum _ fun k _ => cont_ite (hc p k) continuousAt_const

theorem cont_pointSum (hdim : dim = 2 ∨ dim = 3) (ker : Kernel) (g : GridDomain ℝ dim) (hg : ∀ d, 0 < g.gridSize d)
    (pos : T → Fin n → Fin dim → ℝ) (F : T → Interaction ℝ → ℝ)
    (hF : ∀ t (I : Interaction ℝ), I.shapeVal = 0 → (I.shapeGrad = fun _ => 0) → F t I = 0) (p : Fin n)
    (hc : ∀ (k : GridIdx g.gridSize), ContinuousAt (fun t => F t (nodeInter ker g (pos t p) fun d => k d)) t0) :
    ContinuousAt (fun t => pointSum (compute ker g (pos t))
      (fun i => F t (computeSingle ker g (pos t i.divNat) i.modNat.val)) p) t0 := by
  simp only [fun t => point_nodes hdim ker g hg (pos t) (F t) (hF t) p]
  exact cont_sum _ fun k _ => hc k

/-- Weights of points on nodes: masses and momenta on the grid vary continuously whatever the kernel. -/
theorem cont_p2g_mass (hdim : dim = 2 ∨ dim = 3) (ker : Kernel) (g : GridDomain ℝ dim) (hg : ∀ d, 0 < g.gridSize d)
    {pos : T → Fin n → Fin dim → ℝ} (hp : ∀ q a, ContinuousAt (fun t => pos t q a) t0) {s : T → MPState ℝ dim n} (hs : MPCont s t0)
    {gr : T → GridArrays ℝ dim} (hgr : GridCont gr t0) :
    (∀ j, ContinuousAt (fun t => (p2gBody (compute ker g (pos t)) (s t) (gr t)).mass j) t0) ∧
    ∀ j a, ContinuousAt (fun t => (p2gBody (compute ker g (pos t)) (s t) (gr t)).moment j a) t0 := by
  refine ⟨fun j => (hgr.mass j).add ?_, fun j a => (hgr.moment j a).add ?_⟩
  · exact cont_scatter hdim ker g hg pos (fun t p I => I.shapeVal * 1 * (s t).mass p)
      (fun t p I h _ => by rw [h]; ring)
      (fun p k => ((cont_nodeVal ker g (hp p) _).mul continuousAt_const).mul (hs.mass p)) j
  · exact cont_scatter hdim ker g hg pos (fun t p I => I.shapeVal * 1 * (s t).mass p * (s t).velocity p a)
      (fun t p I h _ => by rw [h]; ring)
      (fun p k => (((cont_nodeVal ker g (hp p) _).mul continuousAt_const).mul (hs.mass p)).mul (hs.velocity p a)) j

theorem cont_p2g (hdim : dim = 2 ∨ dim = 3) {ker : Kernel} (hk : ker ≠ .linear) (g : GridDomain ℝ dim) (hg : ∀ d, 0 < g.gridSize d)
    {pos : T → Fin n → Fin dim → ℝ} (hp : ∀ q a, ContinuousAt (fun t => pos t q a) t0) {s : T → MPState ℝ dim n} (hs : MPCont s t0)
    {gr : T → GridArrays ℝ dim} (hgr : GridCont gr t0) :
    GridCont (fun t => p2gBody (compute ker g (pos t)) (s t) (gr t)) t0 := by
  obtain ⟨h1, h2⟩ := cont_p2g_mass hdim ker g hg hp hs hgr
  refine ⟨h1, h2, hgr.momentNt, fun j a => continuousAt_const.add ?_⟩
  exact cont_scatter hdim ker g hg pos (fun t p I => 1 * (s t).volume p * internTerm dim ((s t).stress p) I.shapeGrad a * 1 +
      I.shapeVal * 1 * (s t).force p a) (fun t p I h h' => by rw [h, h', internTerm_zero]; ring)
    (fun p k => (((continuousAt_const.mul (hs.volume p)).mul (cont_intern (hs.stress p) (cont_nodeGrad hdim hk g (hp p) _) a)).mul
      continuousAt_const).add (((cont_nodeVal ker g (hp p) _).mul continuousAt_const).mul (hs.force p a))) j

theorem cont_nodeVel {m u : T → ℝ} (hm : ContinuousAt m t0) (hu : ContinuousAt u t0) {cut : ℝ} (h0 : 0 ≤ cut) (h : m t0 ≠ cut) :
    ContinuousAt (fun t => nodeVel cut (m t) (u t)) t0 := by
  rcases lt_or_gt_of_ne h with h | h
  · refine (continuousAt_const (y := (0 : ℝ))).congr ?_
    filter_upwards [hm.eventually (gt_mem_nhds h)] with t ht
    rw [nodeVel, if_neg (not_lt.2 ht.le)]
  · refine (hu.div hm (ne_of_gt (lt_of_le_of_lt h0 h))).congr ?_
    filter_upwards [hm.eventually (lt_mem_nhds h)] with t ht
    simp only [nodeVel, if_pos (show m t > cut from ht), Pi.div_apply]

theorem cont_pad3 {v : T → Fin dim → ℝ} (hv : ∀ a, ContinuousAt (fun t => v t a) t0) (i : Fin 3) :
    ContinuousAt (fun t => pad3 (v t) i) t0 := by
  by_cases h : i.val < dim
  · simp only [fun t => pad3_lt (v t) i h]; exact hv _
  · simp only [fun t => pad3_ge (v t) i h]; exact continuousAt_const

theorem cont_set22 {M : T → Mat3 ℝ} (hM : ∀ i j, ContinuousAt (fun t => M t i j) t0) (v : ℝ) (i j : Fin 3) :
    ContinuousAt (fun t => set22 (M t) v i j) t0 := cont_ite continuousAt_const (hM i j)

theorem cont_mite {P : Prop} [Decidable P] {A B : T → Mat3 ℝ} {i j : Fin 3} (hA : ContinuousAt (fun t => A t i j) t0)
    (hB : ContinuousAt (fun t => B t i j) t0) : ContinuousAt (fun t => (if P then A t else B t) i j) t0 := by
  by_cases h : P
  · simpa only [if_pos h] using hA
  · simpa only [if_neg h] using hB

theorem cont_det {M : T → Mat3 ℝ} (hM : ∀ i j, ContinuousAt (fun t => M t i j) t0) : ContinuousAt (fun t => (M t).det) t0 := by
  simp only [Matrix.det_fin_three]
  exact ((((((((hM 0 0).mul (hM 1 1)).mul (hM 2 2)).sub (((hM 0 0).mul (hM 1 2)).mul (hM 2 1))).sub
    (((hM 0 1).mul (hM 1 0)).mul (hM 2 2))).add (((hM 0 1).mul (hM 1 2)).mul (hM 2 0))).add
    (((hM 0 2).mul (hM 1 0)).mul (hM 2 1))).sub (((hM 0 2).mul (hM 1 1)).mul (hM 2 0)))

theorem cont_g2p (hdim : dim = 2 ∨ dim = 3) {ker : Kernel} (hk : ker ≠ .linear) (g : GridDomain ℝ dim) (hg : ∀ d, 0 < g.gridSize d)
    (alpha : ℝ) {dt : T → ℝ} (hdt : ContinuousAt dt t0)
    {pos : T → Fin n → Fin dim → ℝ} (hp : ∀ q a, ContinuousAt (fun t => pos t q a) t0) {s : T → MPState ℝ dim n} (hs : MPCont s t0)
    {gr : T → GridArrays ℝ dim} (hgr : GridCont gr t0) (hm : ∀ j, (gr t0).mass j ≠ uslCutoff) :
    MPCont (fun t => g2pBody alpha (dt t) (compute ker g (pos t)) none (gr t) (s t)) t0 := by
  have hc : (0 : ℝ) ≤ uslCutoff := by unfold uslCutoff; positivity
  have hv : ∀ j a, ContinuousAt (fun t => nodeVel uslCutoff ((gr t).mass j) ((gr t).moment j a)) t0 :=
    fun j a => cont_nodeVel (hgr.mass j) (hgr.moment j a) hc (hm j)
  have hw : ∀ j a, ContinuousAt (fun t => nodeVel uslCutoff ((gr t).mass j) ((gr t).momentNt j a)) t0 :=
    fun j a => cont_nodeVel (hgr.mass j) (hgr.momentNt j a) hc (hm j)
  have hD : ∀ p a, ContinuousAt (fun t => pointSum (compute ker g (pos t)) (fun i => (compute ker g (pos t)).shapeVal i *
      (nodeVel uslCutoff ((gr t).mass ((compute ker g (pos t)).nodeHash i)) ((gr t).momentNt ((compute ker g (pos t)).nodeHash i) a) -
       nodeVel uslCutoff ((gr t).mass ((compute ker g (pos t)).nodeHash i)) ((gr t).moment ((compute ker g (pos t)).nodeHash i) a))) p) t0 :=
    fun p a => cont_pointSum hdim ker g hg pos (fun t I => I.shapeVal * (nodeVel uslCutoff ((gr t).mass I.nodeHash) ((gr t).momentNt I.nodeHash a) -
        nodeVel uslCutoff ((gr t).mass I.nodeHash) ((gr t).moment I.nodeHash a))) (fun t I h _ => by rw [h, zero_mul]) p
      fun k => (cont_nodeVal ker g (hp p) _).mul ((hw _ a).sub (hv _ a))
  have hV : ∀ p a, ContinuousAt (fun t => pointSum (compute ker g (pos t)) (fun i => (compute ker g (pos t)).shapeVal i *
      nodeVel uslCutoff ((gr t).mass ((compute ker g (pos t)).nodeHash i)) ((gr t).momentNt ((compute ker g (pos t)).nodeHash i) a)) p) t0 :=
    fun p a => cont_pointSum hdim ker g hg pos (fun t I => I.shapeVal * nodeVel uslCutoff ((gr t).mass I.nodeHash) ((gr t).momentNt I.nodeHash a))
      (fun t I h _ => by rw [h, zero_mul]) p fun k => (cont_nodeVal ker g (hp p) _).mul (hw _ a)
  have hL0 : ∀ p j k, ContinuousAt (fun t => pointSum (compute ker g (pos t)) (fun i => (compute ker g (pos t)).shapeGrad i j *
      -(pad3 (fun a => nodeVel uslCutoff ((gr t).mass ((compute ker g (pos t)).nodeHash i)) ((gr t).momentNt ((compute ker g (pos t)).nodeHash i) a)) k)) p) t0 :=
    fun p j k => cont_pointSum hdim ker g hg pos (fun t I => I.shapeGrad j *
        -(pad3 (fun a => nodeVel uslCutoff ((gr t).mass I.nodeHash) ((gr t).momentNt I.nodeHash a)) k))
      (fun t I _ h => by rw [h, zero_mul]) p fun k' => (cont_nodeGrad hdim hk g (hp p) _ j).mul (cont_pad3 (hw _) k).neg
  have hL : ∀ p i j, ContinuousAt (fun t => (g2pBody alpha (dt t) (compute ker g (pos t)) none (gr t) (s t)).L p i j) t0 := by
    intro p i j
    exact cont_mite (cont_set22 (M := fun t i j => pointSum (compute ker g (pos t)) (fun l => (compute ker g (pos t)).shapeGrad l i *
        -(pad3 (fun a => nodeVel uslCutoff ((gr t).mass ((compute ker g (pos t)).nodeHash l)) ((gr t).momentNt ((compute ker g (pos t)).nodeHash l) a)) j)) p)
        (fun i j => hL0 p i j) 0 i j) (hL0 p i j)
  have hF0 : ∀ p i j, ContinuousAt (fun t => ((1 - dt t • (g2pBody alpha (dt t) (compute ker g (pos t)) none (gr t) (s t)).L p) * (s t).F p) i j) t0 := by
    intro p i j
    simp only [Matrix.mul_apply]
    refine cont_sum _ fun k _ => ContinuousAt.mul ?_ (hs.F p k j)
    exact continuousAt_const.sub (hdt.mul (hL p i k))
  have hF : ∀ p i j, ContinuousAt (fun t => (g2pBody alpha (dt t) (compute ker g (pos t)) none (gr t) (s t)).F p i j) t0 := by
    intro p i j
    exact cont_mite (cont_set22 (fun i j => hF0 p i j) 1 i j) (hF0 p i j)
  exact
    { position := fun p a => (hs.position p a).add ((hV p a).mul hdt)
      velocity := fun p a => (continuousAt_const.mul (hV p a)).add (continuousAt_const.mul ((hs.velocity p a).add (hD p a)))
      force := hs.force
      mass := hs.mass
      volume := fun p => (cont_det (hF p)).mul (hs.volume0 p)
      volume0 := hs.volume0
      L := hL
      stress := hs.stress
      F := hF
      shape := fun _ => rfl }

end
end Hydrax
