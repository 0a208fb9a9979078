import Verif.Props.Blend
import Verif.Props.SharedGrid

/-!
# Energy balance of a step (C123)

The kinetic energy after a step plus the work absorbed by the material is at most the kinetic energy before it plus the
work of gravity, whatever the blend of PIC and FLIP.
-/

set_option linter.unusedSectionVars false

namespace Hydrax
open Spec

section
variable {z : Sz} {K : Type*} [Field K] [LinearOrder K] [IsStrictOrderedRing K] [FloorRing K] {dim : ℕ}
  {SS LS : Type*} {fn : MathFns K} {sv : Solver z K dim SS LS (ForceState K dim)}

/-- Work that the material of a body absorbs in a step, with the stress and the volume before the step and the stored
velocity gradient after it (both count compression as positive). -/
def Spec.absorbedWork {n : ℕ} (dt : K) : Body K dim n → Body K dim n → K
  | .deformable s, .deformable s' => ∑ p, dt * s.volume p * Matrix.trace (s.stress p * s'.L p)
  | _, _ => 0

/-- Work of a uniform acceleration on a body that moves from the first state to the second. -/
def Spec.gravityWork {n : ℕ} (g : Fin dim → K) : Body K dim n → Body K dim n → K
  | .deformable s, .deformable s' => ∑ p, s.mass p * ∑ a, g a * (s'.position p a - s.position p a)
  | _, _ => 0

/-- No two active couplings share a grid. -/
def Spec.OwnGrids (cs : List (Coupling z)) : Prop :=
  ∀ b ∈ cs, ∀ c ∈ cs, b.skip = false → c.skip = false → b.g = c.g → b = c

theorem gridSum_none (cs : List (Coupling z)) (g : Fin z.G) (f : Coupling z → K)
    (h : ∀ c ∈ cs, c.skip = false → c.g ≠ g) : gridSum cs g f = 0 := by
  induction cs with
  | nil => simp [gridSum]
  | cons c cs ih =>
    rw [gridSum_cons, ih fun d hd => h d (by simp [hd]), if_neg fun e => h c (by simp) e.1 e.2, add_zero]

/-- On a grid with one active coupling the sum over the grid is the term of that coupling. -/
theorem gridSum_own (cs : List (Coupling z)) (hn : cs.Nodup) (hown : OwnGrids cs) (f : Coupling z → K) (c : Coupling z)
    (hc : c ∈ cs) (hs : c.skip = false) : gridSum cs c.g f = f c := by
  induction cs with
  | nil => simp at hc
  | cons d cs ih =>
    obtain ⟨h1, h2⟩ := List.nodup_cons.mp hn
    rw [gridSum_cons]
    rcases List.mem_cons.mp hc with rfl | hc'
    · rw [if_pos ⟨hs, rfl⟩, gridSum_none, add_zero]
      intro b hb hbs e
      exact h1 (hown b (by simp [hb]) c (by simp) hbs hs e ▸ hb)
    · rw [ih h2 (fun b hb e he => hown b (by simp [hb]) e (by simp [he])) hc', if_neg, zero_add]
      rintro ⟨e1, e2⟩
      exact h1 (hown d (by simp) c (by simp [hc']) e1 hs e2 ▸ hc')

/-- A sum over grids of something that vanishes on grids without an active coupling. -/
theorem sum_grids (cs : List (Coupling z)) (hn : cs.Nodup) (hown : OwnGrids cs) (X : Fin z.G → K)
    (h0 : ∀ g, (∀ c ∈ cs, c.skip = false → c.g ≠ g) → X g = 0) : ∑ g, X g = activeSum cs fun c => X c.g := by
  rw [← sum_gridSum cs (fun g _ => X g)]
  refine Finset.sum_congr rfl fun g _ => ?_
  by_cases h : ∀ c ∈ cs, c.skip = false → c.g ≠ g
  · rw [h0 g h, gridSum_none _ _ _ h]
  · push Not at h
    obtain ⟨c, hc, hs, rfl⟩ := h
    rw [gridSum_own cs hn hown _ c hc hs]

/-- Energy of one component of one node. -/
theorem node_energy {cut M P R dt alpha : K} (hcut : 0 ≤ cut) :
    (1 - alpha) * (M * (1 / 2 * nodeVel cut M (P + R * dt) ^ 2)) + alpha * (P * (nodeVel cut M (P + R * dt) - nodeVel cut M P) +
      M * (1 / 2 * (nodeVel cut M (P + R * dt) - nodeVel cut M P) ^ 2)) ≤
    (1 - alpha) * (M * (1 / 2 * nodeVel cut M P ^ 2)) + dt * (R * nodeVel cut M (P + R * dt)) := by
  by_cases hm : M > cut
  · have h0 : 0 < M := lt_of_le_of_lt hcut hm
    have hu : M * nodeVel cut M P = P := mul_nodeVel hm h0
    have hw : M * nodeVel cut M (P + R * dt) = P + R * dt := mul_nodeVel hm h0
    set u := nodeVel cut M P
    set w := nodeVel cut M (P + R * dt)
    have hR : R * dt = M * (w - u) := by rw [mul_sub, hw, hu]; ring
    have e : dt * (R * w) = M * (w - u) * w := by rw [← hR]; ring
    rw [e, ← hu]
    have : 0 ≤ M * (w - u) ^ 2 := mul_nonneg h0.le (sq_nonneg _)
    nlinarith
  · have : ∀ q, nodeVel cut M q = 0 := fun q => by unfold nodeVel; rw [if_neg hm]
    simp [this]

theorem blend_sq_le {alpha a b : K} (h0 : 0 ≤ alpha) (h1 : alpha ≤ 1) :
    ((1 - alpha) * a + alpha * b) ^ 2 ≤ (1 - alpha) * a ^ 2 + alpha * b ^ 2 := by
  nlinarith [mul_nonneg (mul_nonneg h0 (sub_nonneg.mpr h1)) (sq_nonneg (a - b))]

/-- Energy of a body after the gather, in terms of nodal velocities. -/
theorem g2p_energy {n w N : ℕ} {c : InteractionCache K n w} (hc : GoodCache c N) {alpha : K} (h0 : 0 ≤ alpha) (h1 : alpha ≤ 1)
    (dt : K) (gr : GridArrays K dim) (s : MPState K dim n) (hm : ∀ q, 0 < s.mass q) :
    bodyKE (.deformable (g2pBody alpha dt c none gr s)) ≤ alpha * bodyKE (.deformable s) +
      ∑ j ∈ Finset.range N, ∑ a, ((1 - alpha) * (nodeMass c s.mass j * (1 / 2 *
        nodeVel uslCutoff (gr.mass j) (gr.momentNt j a) ^ 2)) +
      alpha * (scatterAdd c.nodeHash (fun i => c.shapeVal i * s.mass (c.pointId i) * s.velocity (c.pointId i) a) j *
        (nodeVel uslCutoff (gr.mass j) (gr.momentNt j a) - nodeVel uslCutoff (gr.mass j) (gr.moment j a)) +
        nodeMass c s.mass j * (1 / 2 * (nodeVel uslCutoff (gr.mass j) (gr.momentNt j a) -
          nodeVel uslCutoff (gr.mass j) (gr.moment j a)) ^ 2))) := by
  let W : ℕ → Fin dim → K := fun j a => nodeVel uslCutoff (gr.mass j) (gr.momentNt j a)
  let D : ℕ → Fin dim → K := fun j a => W j a - nodeVel uslCutoff (gr.mass j) (gr.moment j a)
  let I : (ℕ → Fin dim → K) → Fin n → Fin dim → K := fun u p a => pointSum c (fun i => c.shapeVal i * u (c.nodeHash i) a) p
  have kW := interp_ke hc s.mass (fun q => (hm q).le) W
  have kD := interp_ke hc s.mass (fun q => (hm q).le) D
  have kX : ∑ p, s.mass p * ∑ a, s.velocity p a * I D p a = ∑ j ∈ Finset.range N, ∑ a,
      scatterAdd c.nodeHash (fun i => c.shapeVal i * s.mass (c.pointId i) * s.velocity (c.pointId i) a) j * D j a := by
    simp only [Finset.mul_sum]
    rw [Finset.sum_comm]
    refine Eq.trans ?_ Finset.sum_comm
    refine Finset.sum_congr rfl fun a _ => ?_
    rw [sum_scatterAdd_mul _ hc.hash_lt]
    have := sum_by_point c (fun p => s.mass p * s.velocity p a) (fun i => c.shapeVal i * D (c.nodeHash i) a)
    refine Eq.trans ?_ (this.symm.trans ?_)
    · exact Finset.sum_congr rfl fun p _ => by simp only [I]; ring
    · exact Finset.sum_congr rfl fun i _ => by ring
  have hpt : bodyKE (.deformable (g2pBody alpha dt c none gr s)) ≤ ∑ p, ((1 - alpha) * (1 / 2 * s.mass p * ∑ a, I W p a ^ 2) +
      alpha * (1 / 2 * s.mass p * ∑ a, s.velocity p a ^ 2 + s.mass p * ∑ a, s.velocity p a * I D p a +
        1 / 2 * s.mass p * ∑ a, I D p a ^ 2)) := by
    refine Finset.sum_le_sum fun p _ => ?_
    have e : (g2pBody alpha dt c none gr s).mass p = s.mass p := rfl
    rw [e]
    simp only [Finset.mul_sum, ← Finset.sum_add_distrib]
    refine Finset.sum_le_sum fun a _ => ?_
    have hv : (g2pBody alpha dt c none gr s).velocity p a = (1 - alpha) * I W p a + alpha * (s.velocity p a + I D p a) := rfl
    rw [hv]
    have hb := mul_le_mul_of_nonneg_left (blend_sq_le (a := I W p a) (b := s.velocity p a + I D p a) h0 h1)
      (mul_nonneg (by norm_num : (0 : K) ≤ 1 / 2) (hm p).le)
    refine hb.trans (le_of_eq (by ring))
  refine hpt.trans ?_
  simp only [Finset.sum_add_distrib, ← Finset.mul_sum] at kW kD kX ⊢
  have hb : bodyKE (.deformable s) = ∑ p, 1 / 2 * s.mass p * ∑ a, s.velocity p a ^ 2 := rfl
  rw [hb, kX]
  have eW : ∑ j ∈ Finset.range N, nodeMass c s.mass j * (1 / 2 * ∑ a, W j a ^ 2) =
      ∑ j ∈ Finset.range N, 1 / 2 * nodeMass c s.mass j * ∑ a, W j a ^ 2 := Finset.sum_congr rfl fun j _ => by ring
  have eD : ∑ j ∈ Finset.range N, nodeMass c s.mass j * (1 / 2 * ∑ a, D j a ^ 2) =
      ∑ j ∈ Finset.range N, 1 / 2 * nodeMass c s.mass j * ∑ a, D j a ^ 2 := Finset.sum_congr rfl fun j _ => by ring
  have := mul_le_mul_of_nonneg_left kW (sub_nonneg.mpr h1)
  have := mul_le_mul_of_nonneg_left kD h0
  simp only [W, D, I] at *
  rw [eW, eD]
  linarith

/-- Energy of the scene after a step: the power of the nodal forces and the work of gravity. -/
theorem step_energy {gravs : List (List (Fin z.G) × ℕ)} (hL : ∀ c, (sv.laws c).OnlyStress) (h0 : 0 ≤ sv.alpha)
    (h1 : sv.alpha ≤ 1) {st st' : SimState z K dim SS LS (ForceState K dim)} {cut : K} (hr : Regular cut sv st.world)
    {grids : Fin z.G → GridArrays K dim} {f : Fin z.G → ℕ → Fin dim → K} {x3 x4 : Ctx z K dim SS LS (ForceState K dim)}
    (S : UslStages fn sv gravs st st' grids f x3 x4) :
    totalKE st'.world ≤ totalKE st.world + ∑ g, ∑ j ∈ Finset.range (sv.domains g).numCells, ∑ a, st.dt *
        (f g j a * nodeVel uslCutoff ((grids g).mass j) ((grids g).moment j a + (grids g).force j a * st.dt)) +
      activeSum sv.couplings (fun c => gravityWork (gridAccel st.mech.forces gravs c.g) (st.world.bodies c.p)
        (st'.world.bodies c.p)) := by
  have hlaw := (law_fold hL st.dt sv.couplings x3 x4 S.law).2
  have hcut : (0 : K) ≤ uslCutoff := by unfold uslCutoff; positivity
  let U : Fin z.G → ℕ → Fin dim → K := fun g j a => nodeVel uslCutoff ((grids g).mass j) ((grids g).moment j a)
  let W : Fin z.G → ℕ → Fin dim → K := fun g j a =>
    nodeVel uslCutoff ((grids g).mass j) ((grids g).moment j a + (grids g).force j a * st.dt)
  let B : Fin z.G → Coupling z → ℕ → Fin dim → K := fun g c j a =>
    (1 - sv.alpha) * ((st.world.bodies c.p).nodeMass c.ker (sv.domains c.g) j * (1 / 2 * W g j a ^ 2)) +
      sv.alpha * ((st.world.bodies c.p).nodeMoment c.ker (sv.domains c.g) j a * (W g j a - U g j a) +
        (st.world.bodies c.p).nodeMass c.ker (sv.domains c.g) j * (1 / 2 * (W g j a - U g j a) ^ 2))
  have up : ∀ c ∈ sv.couplings, c.skip = false → bodyKE (st'.world.bodies c.p) ≤
      sv.alpha * bodyKE (st.world.bodies c.p) + ∑ j ∈ Finset.range (sv.domains c.g).numCells, ∑ a, B c.g c j a := by
    intro c hc hs
    obtain ⟨s, e1, hgc, hmp, e2⟩ := S.body c hc hs
    rw [S.world', bodyKE_rel (hlaw c.p), e2]
    refine (g2p_energy hgc h0 h1 st.dt (grids c.g) (resetBody s) hmp).trans (le_of_eq ?_)
    simp only [B, e1, W, U]
    rw [S.momentNt c hc hs]
    rfl
  have hgrav : ∀ c ∈ sv.couplings, c.skip = false →
      gravityWork (gridAccel st.mech.forces gravs c.g) (st.world.bodies c.p) (st'.world.bodies c.p) =
      ∑ j ∈ Finset.range (sv.domains c.g).numCells, (st.world.bodies c.p).nodeMass c.ker (sv.domains c.g) j *
        ∑ a, st.dt * (gridAccel st.mech.forces gravs c.g a * W c.g j a) := by
    intro c hc hs
    obtain ⟨s, e1, hgc, hmp, e2⟩ := S.body c hc hs
    have hl := hlaw c.p
    rw [e2, ← S.world'] at hl
    cases hb : st'.world.bodies c.p with
    | rigid _ => rw [hb] at hl; exact hl.elim
    | deformable s' =>
      rw [hb] at hl
      obtain ⟨-, -, l3, -⟩ := hl
      rw [e1]
      simp only [gravityWork, Body.nodeMass, Finset.mul_sum]
      rw [Finset.sum_comm]
      refine Eq.trans ?_ Finset.sum_comm
      refine Finset.sum_congr rfl fun a _ => ?_
      have hi := sum_mass_interp hgc s.mass (fun j => st.dt * (gridAccel st.mech.forces gravs c.g a * W c.g j a))
      refine Eq.trans (Finset.sum_congr rfl fun p _ => ?_) hi
      have hx : s'.position p a - s.position p a =
          pointSum (compute c.ker (sv.domains c.g) s.position) (fun i =>
            (compute c.ker (sv.domains c.g) s.position).shapeVal i *
              W c.g ((compute c.ker (sv.domains c.g) s.position).nodeHash i) a) p * st.dt := by
        rw [l3]
        simp only [g2pBody, ghostBlend, resetBody, W, S.momentNt c hc hs]
        ring
      rw [hx, mul_comm _ st.dt, ← mul_assoc (gridAccel _ _ _ _), ← pointSum_mul]
      congr 2
      funext i
      ring
  have hK := totalKE_active hL hr S.toUslGather
  have hsum := gridSum_le _ _ _ up
  have hG := scene_grid_ke S.toUslGather
  rw [activeSum_congr _ _ _ hgrav]
  rw [activeSum_add, ← activeSum_mul,
    ← sum_gridSum sv.couplings (fun g c => ∑ j ∈ Finset.range (sv.domains g).numCells, ∑ a, B g c j a)] at hsum
  rw [← sum_gridSum sv.couplings (fun g c => ∑ j ∈ Finset.range (sv.domains g).numCells,
    (st.world.bodies c.p).nodeMass c.ker (sv.domains c.g) j * ∑ a, st.dt * (gridAccel st.mech.forces gravs g a * W g j a))]
  have hnode : ∑ g, gridSum sv.couplings g (fun c => ∑ j ∈ Finset.range (sv.domains g).numCells, ∑ a, B g c j a) ≤
      (1 - sv.alpha) * (∑ g, ∑ j ∈ Finset.range (sv.domains g).numCells, (grids g).mass j * (1 / 2 * ∑ a, U g j a ^ 2)) +
      (∑ g, ∑ j ∈ Finset.range (sv.domains g).numCells, ∑ a, st.dt * (f g j a * W g j a) +
      ∑ g, gridSum sv.couplings g (fun c => ∑ j ∈ Finset.range (sv.domains g).numCells,
        (st.world.bodies c.p).nodeMass c.ker (sv.domains c.g) j *
          ∑ a, st.dt * (gridAccel st.mech.forces gravs g a * W g j a))) := by
    rw [Finset.mul_sum, ← Finset.sum_add_distrib, ← Finset.sum_add_distrib]
    refine Finset.sum_le_sum fun g _ => ?_
    rw [← gridSum_sum, ← gridSum_sum, Finset.mul_sum, ← Finset.sum_add_distrib, ← Finset.sum_add_distrib]
    refine Finset.sum_le_sum fun j _ => ?_
    rw [← gridSum_mul, ← S.mass g j, ← gridSum_sum]
    simp only [Finset.mul_sum]
    rw [← Finset.sum_add_distrib, ← Finset.sum_add_distrib]
    refine Finset.sum_le_sum fun a _ => ?_
    have hB : gridSum sv.couplings g (fun c => B g c j a) =
        (1 - sv.alpha) * ((grids g).mass j * (1 / 2 * W g j a ^ 2)) +
        sv.alpha * ((grids g).moment j a * (W g j a - U g j a) + (grids g).mass j * (1 / 2 * (W g j a - U g j a) ^ 2)) := by
      simp only [B]
      rw [S.mass, S.moment, gridSum_add]
      simp only [mul_comm (1 - sv.alpha), mul_comm sv.alpha, ← gridSum_mul, gridSum_add]
    rw [hB]
    refine (node_energy hcut (R := (grids g).force j a)).trans (le_of_eq ?_)
    rw [S.force]
    simp only [U, W, S.force]
    ring
  have hG' := mul_le_mul_of_nonneg_left hG (sub_nonneg.mpr h1)
  simp only [W, U] at *
  linarith

/-- The power of the internal forces of a body on the nodes is what its material absorbs, with the opposite sign. -/
theorem internal_power_absorbed {n w N : ℕ} {c : InteractionCache K n w} (hc : GoodCache c N) (hdim : dim = 2 ∨ dim = 3) (alpha dt : K)
    (gr : GridArrays K dim) (s : MPState K dim n) (hs : s.force = fun _ _ => 0) :
    ∑ j ∈ Finset.range N, ∑ a, dt * ((p2gBody c s GridArrays.new).force j a * nodeVel uslCutoff (gr.mass j) (gr.momentNt j a)) =
      - ∑ p, dt * s.volume p * Matrix.trace (s.stress p * (g2pBody alpha dt c none gr s).L p) := by
  have hr : ∀ p, dt * s.volume p * Matrix.trace (s.stress p * (g2pBody alpha dt c none gr s).L p) =
      - ∑ a : Fin dim, ∑ b : Fin 3, (dt * s.volume p * s.stress p ⟨a, by omega⟩ b) *
        pointSum c (fun i => c.shapeGrad i b * nodeVel uslCutoff (gr.mass (c.nodeHash i)) (gr.momentNt (c.nodeHash i) a)) p := by
    intro p
    have hneg : ∀ u : Fin (n * w) → K, pointSum c (fun i => -u i) p = - pointSum c u p := by
      intro u; simp [pointSum]
    have hL : ∀ (b k : Fin 3), (g2pBody alpha dt c none gr s).L p b k = - if h : k.val < dim then
        pointSum c (fun i => c.shapeGrad i b * nodeVel uslCutoff (gr.mass (c.nodeHash i)) (gr.momentNt (c.nodeHash i) ⟨k.val, h⟩)) p
        else 0 := by
      intro b k
      have hp : pointSum c (fun i => c.shapeGrad i b * -(pad3 (fun a => nodeVel uslCutoff (gr.mass (c.nodeHash i))
          (gr.momentNt (c.nodeHash i) a)) k)) p = - if h : k.val < dim then
        pointSum c (fun i => c.shapeGrad i b * nodeVel uslCutoff (gr.mass (c.nodeHash i)) (gr.momentNt (c.nodeHash i) ⟨k.val, h⟩)) p
        else 0 := by
        by_cases hk : k.val < dim
        · simp only [pad3, dif_pos hk, mul_neg, hneg]
        · simp [pad3, hk, pointSum]
      rw [← hp]
      rcases hdim with rfl | rfl
      · simp only [g2pBody, ghostBlend, ↓reduceIte, set22]
        split_ifs with h
        · obtain ⟨rfl, rfl⟩ := h
          simp [pad3, pointSum]
        · rfl
      · simp [g2pBody, ghostBlend]
    simp only [Matrix.trace, Matrix.diag, Matrix.mul_apply, hL]
    rcases hdim with rfl | rfl
    · simp [Fin.sum_univ_three, Fin.sum_univ_two]
      ring
    · simp [Fin.sum_univ_three]
      ring
  simp only [hr, Finset.sum_neg_distrib, neg_neg]
  rw [Finset.sum_comm]
  refine Eq.trans ?_ Finset.sum_comm
  refine Finset.sum_congr rfl fun a _ => ?_
  refine Eq.trans ?_ Finset.sum_comm
  simp only [← Finset.mul_sum, p2g_force hc, hs, mul_zero, add_zero]
  rw [sum_scatterAdd_mul _ hc.hash_lt, Finset.mul_sum]
  have hb : ∀ b : Fin 3, ∑ p, (dt * s.volume p * s.stress p ⟨a, by omega⟩ b) *
        pointSum c (fun i => c.shapeGrad i b * nodeVel uslCutoff (gr.mass (c.nodeHash i)) (gr.momentNt (c.nodeHash i) a)) p
      = ∑ i, (dt * s.volume (c.pointId i) * s.stress (c.pointId i) ⟨a, by omega⟩ b) *
        (c.shapeGrad i b * nodeVel uslCutoff (gr.mass (c.nodeHash i)) (gr.momentNt (c.nodeHash i) a)) := fun b =>
    (sum_by_point c (fun p => dt * s.volume p * s.stress p ⟨a, by omega⟩ b) _).symm
  simp only [hb]
  refine Eq.trans ?_ Finset.sum_comm
  refine Finset.sum_congr rfl fun i _ => ?_
  have ha : a.val < 3 := by omega
  simp only [internTerm, trunc3, dif_pos ha, Finset.mul_sum, Finset.sum_mul]
  exact Finset.sum_congr rfl fun b _ => by ring

/-- Stress-free bodies, any number of them on a grid, any blend: the kinetic energy grows at most by the work of gravity. -/
theorem usl_step_energy_stressfree (gravs : List (List (Fin z.G) × ℕ)) (hdim : dim = 2 ∨ dim = 3)
    (hforces : sv.forces = gravityList gravs) (hL : ∀ c, (sv.laws c).OnlyStress) (h0 : 0 ≤ sv.alpha) (h1 : sv.alpha ≤ 1)
    {st st' : SimState z K dim SS LS (ForceState K dim)} (h : uslCall fn sv st = .ok st') {cut : K} (hr : Regular cut sv st.world)
    (hσ : ∀ c ∈ sv.couplings, c.skip = false → ∀ s, st.world.bodies c.p = .deformable s → ∀ q, s.stress q = 0) :
    totalKE st'.world ≤ totalKE st.world + activeSum sv.couplings (fun c =>
      gravityWork (gridAccel st.mech.forces gravs c.g) (st.world.bodies c.p) (st'.world.bodies c.p)) := by
  obtain ⟨grids, f, x3, x4, S⟩ := usl_stages gravs hdim hforces h hr
  have hf := S.stressfree hσ
  have := step_energy hL h0 h1 hr S
  simp only [hf, zero_mul, mul_zero, Finset.sum_const_zero, add_zero] at this
  exact this

/-- **C123**, one step. Bodies on grids of their own, under gravity, with any stresses, laws and blend: kinetic energy plus
the work absorbed by the material is at most the kinetic energy before plus the work of gravity. -/
theorem usl_step_energy_partial (gravs : List (List (Fin z.G) × ℕ)) (hdim : dim = 2 ∨ dim = 3)
    (hforces : sv.forces = gravityList gravs) (hL : ∀ c, (sv.laws c).OnlyStress) (h0 : 0 ≤ sv.alpha) (h1 : sv.alpha ≤ 1)
    (hown : OwnGrids sv.couplings)
    {st st' : SimState z K dim SS LS (ForceState K dim)} (h : uslCall fn sv st = .ok st') {cut : K} (hr : Regular cut sv st.world) :
    totalKE st'.world + activeSum sv.couplings (fun c => absorbedWork st.dt (st.world.bodies c.p) (st'.world.bodies c.p)) ≤
      totalKE st.world + activeSum sv.couplings (fun c =>
        gravityWork (gridAccel st.mech.forces gravs c.g) (st.world.bodies c.p) (st'.world.bodies c.p)) := by
  obtain ⟨grids, f, x3, x4, S⟩ := usl_stages gravs hdim hforces h hr
  have hlaw := (law_fold hL st.dt sv.couplings x3 x4 S.law).2
  have key := step_energy hL h0 h1 hr S
  have habs : ∀ c ∈ sv.couplings, c.skip = false →
      absorbedWork st.dt (st.world.bodies c.p) (st'.world.bodies c.p) = -∑ j ∈ Finset.range (sv.domains c.g).numCells, ∑ a,
        st.dt * (f c.g j a * nodeVel uslCutoff ((grids c.g).mass j) ((grids c.g).moment j a + (grids c.g).force j a * st.dt)) := by
    intro c hc hs
    obtain ⟨s, e1, hgc, hmp, e2⟩ := S.body c hc hs
    have hl := hlaw c.p
    rw [e2, ← S.world'] at hl
    cases hb : st'.world.bodies c.p with
    | rigid _ => rw [hb] at hl; exact hl.elim
    | deformable s' =>
      rw [hb] at hl
      obtain ⟨-, -, -, l4⟩ := hl
      rw [e1, S.internal c hc hs (fun b hb hbs e => hown b hb c hc hbs hs e) s e1]
      have := internal_power_absorbed hgc hdim sv.alpha st.dt (grids c.g) (resetBody s) rfl
      rw [S.momentNt c hc hs] at this
      rw [this, neg_neg]
      simp only [absorbedWork]
      rw [l4]
      rfl
  rw [activeSum_congr _ _ _ habs]
  have hg := sum_grids sv.couplings (List.Nodup.of_map _ hr.single) hown (fun g =>
    ∑ j ∈ Finset.range (sv.domains g).numCells, ∑ a, st.dt * (f g j a * nodeVel uslCutoff ((grids g).mass j)
      ((grids g).moment j a + (grids g).force j a * st.dt))) (by
    intro g hg
    refine Finset.sum_eq_zero fun j _ => Finset.sum_eq_zero fun a _ => ?_
    have hm : (grids g).mass j = 0 := by rw [S.mass, gridSum_none _ _ _ hg]
    rw [(S.empty g j hm a).2]
    simp)
  have hneg := activeSum_mul sv.couplings (fun c => ∑ j ∈ Finset.range (sv.domains c.g).numCells, ∑ a, st.dt * (f c.g j a *
    nodeVel uslCutoff ((grids c.g).mass j) ((grids c.g).moment j a + (grids c.g).force j a * st.dt))) (-1)
  simp only [neg_one_mul] at hneg
  rw [← hneg, ← hg]
  linarith

theorem gravityWork_self {n : ℕ} (g : Fin dim → K) (b : Body K dim n) : gravityWork g b b = 0 := by
  cases b with
  | rigid _ => rfl
  | deformable s => simp [gravityWork]

/-- **C123**, any number of steps. The work absorbed by the material along the way and the kinetic energy at the end are
paid for by the kinetic energy at the start and the work of gravity between start and end. -/
theorem usl_run_energy_partial (gravs : List (List (Fin z.G) × ℕ)) (hdim : dim = 2 ∨ dim = 3)
    (hforces : sv.forces = gravityList gravs) (hL : ∀ c, (sv.laws c).OnlyStress) (h0 : 0 ≤ sv.alpha) (h1 : sv.alpha ≤ 1)
    (hown : OwnGrids sv.couplings) {cut : K} (n : ℕ) (tr : ℕ → SimState z K dim SS LS (ForceState K dim))
    (h : ∀ k < n, uslCall fn sv (tr k) = .ok (tr (k + 1))) (hr : ∀ k < n, Regular cut sv (tr k).world) :
    totalKE (tr n).world + ∑ k ∈ Finset.range n, activeSum sv.couplings (fun c =>
        absorbedWork (tr 0).dt ((tr k).world.bodies c.p) ((tr (k + 1)).world.bodies c.p)) ≤
      totalKE (tr 0).world + activeSum sv.couplings (fun c =>
        gravityWork (gridAccel (tr 0).mech.forces gravs c.g) ((tr 0).world.bodies c.p) ((tr n).world.bodies c.p)) := by
  suffices hall : ∀ m ≤ n, (tr m).dt = (tr 0).dt ∧ (tr m).mech.forces = (tr 0).mech.forces ∧
      (∀ c ∈ sv.couplings, c.skip = false → ∀ s, (tr m).world.bodies c.p = .deformable s → m = 0 ∨
        ∃ s0, (tr 0).world.bodies c.p = .deformable s0 ∧ s.mass = s0.mass) ∧
      totalKE (tr m).world + ∑ k ∈ Finset.range m, activeSum sv.couplings (fun c =>
        absorbedWork (tr 0).dt ((tr k).world.bodies c.p) ((tr (k + 1)).world.bodies c.p)) ≤
      totalKE (tr 0).world + activeSum sv.couplings (fun c =>
        gravityWork (gridAccel (tr 0).mech.forces gravs c.g) ((tr 0).world.bodies c.p) ((tr m).world.bodies c.p)) from
    (hall n le_rfl).2.2.2
  intro m
  induction m with
  | zero =>
    intro _
    refine ⟨rfl, rfl, fun _ _ _ _ _ => .inl rfl, ?_⟩
    simp only [gravityWork_self, Finset.range_zero, Finset.sum_empty, add_zero, le_add_iff_nonneg_right]
    refine le_of_eq ?_
    simp [activeSum]
  | succ m ih =>
    intro hm
    obtain ⟨i1, i2, i3, i4⟩ := ih (by omega)
    have hstep := usl_step_energy_partial gravs hdim hforces hL h0 h1 hown (h m (by omega)) (hr m (by omega))
    obtain ⟨grids, f, x3, x4, S⟩ := usl_stages gravs hdim hforces (h m (by omega)) (hr m (by omega))
    obtain ⟨hfo, hlaw⟩ := law_fold hL (tr m).dt sv.couplings x3 x4 S.law
    have hmass : ∀ c ∈ sv.couplings, c.skip = false → ∃ s s', (tr m).world.bodies c.p = .deformable s ∧
        (tr (m + 1)).world.bodies c.p = .deformable s' ∧ s'.mass = s.mass := by
      intro c hc hs
      obtain ⟨s, e1, hgc, hmp, e2⟩ := S.body c hc hs
      have hl := hlaw c.p
      rw [e2, ← S.world'] at hl
      cases hb : (tr (m + 1)).world.bodies c.p with
      | rigid _ => rw [hb] at hl; exact hl.elim
      | deformable s' =>
        rw [hb] at hl
        exact ⟨s, s', e1, rfl, hl.1⟩
    refine ⟨S.dt'.trans i1, ?_, ?_, ?_⟩
    · rw [S.mech', hfo, S.mech, i2]
    · intro c hc hs s' e'
      obtain ⟨s, s2, e1, e2, e3⟩ := hmass c hc hs
      rw [e2] at e'
      cases e'
      right
      rcases i3 c hc hs s e1 with rfl | ⟨s0, e4, e5⟩
      · exact ⟨s, e1, e3⟩
      · exact ⟨s0, e4, e3.trans e5⟩
    · rw [Finset.sum_range_succ]
      rw [i1, i2] at hstep
      have hadd : activeSum sv.couplings (fun c => gravityWork (gridAccel (tr 0).mech.forces gravs c.g) ((tr 0).world.bodies c.p)
            ((tr (m + 1)).world.bodies c.p)) =
          activeSum sv.couplings (fun c => gravityWork (gridAccel (tr 0).mech.forces gravs c.g) ((tr 0).world.bodies c.p)
            ((tr m).world.bodies c.p)) +
          activeSum sv.couplings (fun c => gravityWork (gridAccel (tr 0).mech.forces gravs c.g) ((tr m).world.bodies c.p)
            ((tr (m + 1)).world.bodies c.p)) := by
        rw [← activeSum_add]
        refine activeSum_congr _ _ _ fun c hc hs => ?_
        obtain ⟨s, s2, e1, e2, e3⟩ := hmass c hc hs
        rcases i3 c hc hs s e1 with rfl | ⟨s0, e4, e5⟩
        · rw [gravityWork_self]
          exact (zero_add _).symm
        · rw [e1, e2, e4]
          simp only [gravityWork]
          rw [← Finset.sum_add_distrib]
          refine Finset.sum_congr rfl fun p _ => ?_
          rw [e5, ← mul_add, ← Finset.sum_add_distrib]
          congr 1
          exact Finset.sum_congr rfl fun a _ => by ring
      rw [hadd]
      linarith

end

/-! ### Concrete cases -/

theorem exSolver_own (ker : Kernel) (reset : Bool) : OwnGrids (exSolver ker reset).couplings := by
  intro b hb c hc _ _ _
  simp only [exSolver, List.mem_singleton] at hb hc
  rw [hb, hc]

set_option maxRecDepth 100000 in
theorem exEnergy_ok : (uslCall ratFns (exSolver .linear false) exState).isOk = true ∧ exRegularB 0 exState.world = true := by
  decide +kernel

/-- `usl_step_energy_partial` on the example scene: an elastic body under stress, falling. -/
example : ∃ st', uslCall ratFns (exSolver .linear false) exState = .ok st' ∧
    totalKE st'.world + absorbedWork (1 / 100) (exState.world.bodies (0 : Fin 1)) (st'.world.bodies (0 : Fin 1)) ≤
      totalKE exState.world + gravityWork ![0, -10] (exState.world.bodies (0 : Fin 1)) (st'.world.bodies (0 : Fin 1)) := by
  obtain ⟨st', h⟩ := isOk_ok exEnergy_ok.1
  refine ⟨st', h, ?_⟩
  have := usl_step_energy_partial [([(0 : Fin 1)], 0)] (.inl rfl) (by simp [exSolver, gravityList])
    (fun _ => LibLaw.onlyStress (.elastic 1000 (1 / 4) false)) (by norm_num [exSolver]) (by norm_num [exSolver])
    (exSolver_own _ _) h (exRegular exEnergy_ok.2)
  have hg : gridAccel (z := exSz) exState.mech.forces [([(0 : Fin 1)], 0)] (0 : Fin 1) = ![0, -10] := by
    funext a
    simp [gridAccel, exState]
  have hdt : exState.dt = 1 / 100 := rfl
  rw [hdt] at this
  simpa [activeSum, exSolver, exCoupling, hg] using this

set_option maxRecDepth 100000 in
/-- The energies of this example are not trivial: the material works on the motion and the sum still falls. -/
theorem exEnergy_values : checkOk (uslCall ratFns (exSolver .linear false) exState) (fun s =>
    absorbedWork (1 / 100) (exState.world.bodies (0 : Fin 1)) (s.world.bodies (0 : Fin 1)) == -1401 / 32000 &&
    totalKE s.world == 6601479 / 544000 && totalKE exState.world == 25 / 2) = true := by decide +kernel

set_option maxRecDepth 100000 in
theorem exEnergyRun_ok : (runSteps (uslCall ratFns (exSolver .linear false)) 2 exState).isOk = true ∧
    checkOk (uslCall ratFns (exSolver .linear false) exState) (fun s => exRegularB 0 s.world) = true := by decide +kernel

/-- `usl_run_energy_partial` on two steps of the example scene. -/
example : ∃ tr : ℕ → SimState exSz ℚ 2 Unit (LawState ℚ) (ForceState ℚ 2), tr 0 = exState ∧
    (∀ k < 2, uslCall ratFns (exSolver .linear false) (tr k) = .ok (tr (k + 1))) ∧
    totalKE (tr 2).world + ∑ k ∈ Finset.range 2, absorbedWork (1 / 100) ((tr k).world.bodies (0 : Fin 1))
      ((tr (k + 1)).world.bodies (0 : Fin 1)) ≤
    totalKE exState.world + gravityWork ![0, -10] (exState.world.bodies (0 : Fin 1)) ((tr 2).world.bodies (0 : Fin 1)) := by
  obtain ⟨s2, h⟩ := isOk_ok exEnergyRun_ok.1
  obtain ⟨s1, h1, h2⟩ := runSteps_succ_ok.mp h
  obtain ⟨s0, h0, h1⟩ := runSteps_succ_ok.mp h1
  have : exState = s0 := by simpa [runSteps] using h0
  subst this
  let tr : ℕ → SimState exSz ℚ 2 Unit (LawState ℚ) (ForceState ℚ 2) := fun k => if k = 0 then exState else if k = 1 then s1 else s2
  have htr : ∀ k < 2, uslCall ratFns (exSolver .linear false) (tr k) = .ok (tr (k + 1)) := by
    intro k hk
    match k, hk with
    | 0, _ => exact h1
    | 1, _ => exact h2
  have hreg : ∀ k < 2, Regular 0 (exSolver .linear false) (tr k).world := by
    intro k hk
    match k, hk with
    | 0, _ => exact exRegular exEnergy_ok.2
    | 1, _ => exact exRegular (checkOk_ok exEnergyRun_ok.2 s1 h1)
  refine ⟨tr, rfl, htr, ?_⟩
  have := usl_run_energy_partial [([(0 : Fin 1)], 0)] (.inl rfl) (by simp [exSolver, gravityList])
    (fun _ => LibLaw.onlyStress (.elastic 1000 (1 / 4) false)) (by norm_num [exSolver]) (by norm_num [exSolver])
    (exSolver_own _ _) 2 tr htr hreg
  have hg : gridAccel (z := exSz) exState.mech.forces [([(0 : Fin 1)], 0)] (0 : Fin 1) = ![0, -10] := by
    funext a
    simp [gridAccel, exState]
  have h0 : tr 0 = exState := rfl
  have hdt : exState.dt = 1 / 100 := rfl
  rw [h0, hdt] at this
  simpa [activeSum, exSolver, exCoupling, hg] using this

/-- `usl_step_energy_stressfree` on the example scene, with a blend of 99 percent FLIP. -/
example : ∃ st', uslCall ratFns (exSolver .linear false) exMovingState = .ok st' ∧ totalKE st'.world ≤ totalKE exMovingState.world +
    activeSum (exSolver .linear false).couplings (fun c => gravityWork (gridAccel exMovingState.mech.forces [([(0 : Fin 1)], 0)] c.g)
      (exMovingState.world.bodies c.p) (st'.world.bodies c.p)) := by
  have hok : (uslCall ratFns (exSolver .linear false) exMovingState).isOk = true := by
    set_option maxRecDepth 100000 in decide +kernel
  obtain ⟨st', h⟩ := isOk_ok hok
  have hr : Regular uslCutoff (exSolver .linear false) exMovingState.world := exRegular exMoving_regular.1
  have hσ : ∀ c ∈ (exSolver .linear false).couplings, c.skip = false → ∀ s, exMovingState.world.bodies c.p = .deformable s →
      ∀ q, s.stress q = 0 := by
    intro c _ _ s hb q
    cases hb
    rfl
  have := usl_step_energy_stressfree [([(0 : Fin 1)], 0)] (.inl rfl) (by simp [exSolver, gravityList])
    (fun _ => LibLaw.onlyStress (.elastic 1000 (1 / 4) false)) (by norm_num [exSolver]) (by norm_num [exSolver])
    h hr hσ
  exact ⟨st', h, this⟩

/-- Two bodies on one grid; the first is under tension and stretched by the flow, the second is stress-free. -/
def exEnergyState : SimState exSharedSz ℚ 2 Unit (LawState ℚ) (ForceState ℚ 2) :=
  { world := { bodies := fun p => .deformable (if p = (0 : Fin 2) then { exBody with stress := fun q => -exBody.stress q }
                else { exSharedBody with stress := fun _ => 0 })
               sdfs := Fin.elim0 }
    mech := { laws := fun _ => .elastic fun _ => 0, solvers := fun _ _ => 0, forces := [] }
    time := 0
    step := 0
    dt := 1 / 100 }

def exEnergySolver : Solver exSharedSz ℚ 2 Unit (LawState ℚ) (ForceState ℚ 2) :=
  { exSharedSolver [exSharedCoupling 0, exSharedCoupling 1] with alpha := 1 }

set_option maxRecDepth 100000 in
theorem exEnergyShared_eval : (uslCall ratFns exEnergySolver exEnergyState).isOk = true ∧
    checkOk (uslCall ratFns exEnergySolver exEnergyState) (fun s =>
      totalKE exEnergyState.world < totalKE s.world + activeSum exEnergySolver.couplings (fun c =>
        absorbedWork exEnergyState.dt (exEnergyState.world.bodies c.p) (s.world.bodies c.p))) = true := by decide +kernel

/-- **C123** fails for two bodies on one grid: the force of the first body is lost, its material absorbs work and no kinetic
energy is spent. There is no gravity in this scene. -/
theorem shared_grid_energy_fails : ∃ st', uslCall ratFns exEnergySolver exEnergyState = .ok st' ∧ exEnergySolver.forces = [] ∧
    ¬ totalKE st'.world + activeSum exEnergySolver.couplings (fun c =>
        absorbedWork exEnergyState.dt (exEnergyState.world.bodies c.p) (st'.world.bodies c.p)) ≤ totalKE exEnergyState.world := by
  obtain ⟨st', h⟩ := isOk_ok exEnergyShared_eval.1
  have := checkOk_ok exEnergyShared_eval.2 st' h
  exact ⟨st', h, rfl, not_le.mpr (by simpa using this)⟩

end Hydrax
