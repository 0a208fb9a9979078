import Verif.Props.Mapping
import Verif.Props.Transfer
import Verif.Lemmas.Energy
import Verif.Lemmas.Fold

/-!
# Properties C14, C20, C22: grid-to-particle transfer
-/

set_option linter.unusedSectionVars false

namespace Hydrax
open Spec

section
variable {K : Type*} [Field K] [LinearOrder K] [IsStrictOrderedRing K] [FloorRing K] {dim n : ℕ}

/-- The nodal velocities of `gr` form the affine field `v(x) = b + A x` on all nodes with mass above the
cutoff, and every node that point `p` interacts with has such a mass. -/
def AffineNodes (cut : K) (g : GridDomain K dim) {w : ℕ} (c : InteractionCache K n w)
    (gr : GridArrays K dim) (p : Fin n) (b : Fin dim → K) (A : Fin dim → Fin dim → K) : Prop :=
  (∀ j, cut < gr.mass j → ∀ a, gr.momentNt j a = gr.mass j * (b a + ∑ k, A a k * g.positionStack j k)) ∧
  ∀ i, c.pointId i = p → c.shapeVal i ≠ 0 → cut < gr.mass (c.nodeHash i)

theorem affine_gather (hdim : dim = 2 ∨ dim = 3) (ker : Kernel) (o e : Fin dim → K)
    (h : K) (hh : 0 < h) (pad : ℕ) (hpad : 2 ≤ pad) (pos : Fin n → Fin dim → K)
    (p : Fin n) (hx : InBox o e (pos p))
    (hlin : ker = .linear → ∀ d, ∀ z : ℤ, (pos p d - o d) / h ≠ z)
    (cut : K) (hcut : 0 ≤ cut) (gr : GridArrays K dim) (b : Fin dim → K) (A : Fin dim → Fin dim → K)
    (hA : AffineNodes cut (GridDomain.create o e h pad)
      (compute ker (GridDomain.create o e h pad) pos) gr p b A) (a k : Fin dim) :
    let g := GridDomain.create o e h pad
    let c := compute ker g pos
    pointSum c (fun i => c.shapeGrad i ⟨k, by omega⟩ *
      nodeVel cut (gr.mass (c.nodeHash i)) (gr.momentNt (c.nodeHash i) a)) p = A a k := by
  intro g c
  rw [← affine_gradient_reproduced hdim ker o e h hh pad hpad pos p hx hlin (b a) (A a) k]
  unfold pointSum
  refine Finset.sum_congr rfl fun i hi => ?_
  have hip : c.pointId i = p := (Finset.mem_filter.mp hi).2
  by_cases h0 : c.shapeVal i = 0
  · have hg0 : c.shapeGrad i ⟨k, by omega⟩ = 0 := grad_eq_zero_of_val hdim _ h0 _
    change c.shapeGrad i _ * _ = c.shapeGrad i _ * _
    rw [hg0, zero_mul, zero_mul]
  · have hm := hA.2 i hip h0
    change _ * nodeVel cut (gr.mass (c.nodeHash i)) (gr.momentNt (c.nodeHash i) a) = _
    rw [hA.1 _ hm a]
    unfold nodeVel
    rw [if_pos (by exact hm), if_pos (by exact hm), mul_div_cancel_left₀ _ (lt_of_le_of_lt hcut hm).ne']

theorem set22_planar (hdim : dim = 2 ∨ dim = 3) (M : Mat3 K) (i j : Fin dim) :
    (if dim = 2 then set22 M 0 else M) ⟨i, by omega⟩ ⟨j, by omega⟩ = M ⟨i, by omega⟩ ⟨j, by omega⟩ := by
  split_ifs with hd
  · unfold set22
    rw [if_neg]
    rintro ⟨h1, -⟩
    have := congrArg Fin.val h1
    simp at this
    omega
  · rfl

/-- **C14** (USL), what the code does: the stored `L` is minus the *transposed* velocity gradient. -/
theorem usl_velocity_gradient_transposed (hdim : dim = 2 ∨ dim = 3) (ker : Kernel) (o e : Fin dim → K)
    (h : K) (hh : 0 < h) (pad : ℕ) (hpad : 2 ≤ pad) (s : MPState K dim n)
    (p : Fin n) (hx : InBox o e (s.position p))
    (hlin : ker = .linear → ∀ d, ∀ z : ℤ, (s.position p d - o d) / h ≠ z)
    (gr : GridArrays K dim) (b : Fin dim → K) (A : Fin dim → Fin dim → K)
    (hA : AffineNodes uslCutoff (GridDomain.create o e h pad)
      (compute ker (GridDomain.create o e h pad) s.position) gr p b A) (alpha dt : K) (i j : Fin dim) :
    (g2pBody alpha dt (compute ker (GridDomain.create o e h pad) s.position) none gr s).L p
      ⟨i, by omega⟩ ⟨j, by omega⟩ = -A j i := by
  have hc : (0 : K) ≤ uslCutoff := by unfold uslCutoff; positivity
  rw [← affine_gather hdim ker o e h hh pad hpad s.position p hx hlin uslCutoff hc gr b A hA j i]
  refine (set22_planar hdim _ i j).trans ?_
  unfold pointSum
  rw [← Finset.sum_neg_distrib]
  refine Finset.sum_congr rfl fun q _ => ?_
  simp only [ghostBlend, pad3_lt _ (⟨j, by omega⟩ : Fin 3) j.isLt]
  ring

/-- **C14** (USL, partial). The symmetric part (strain rate) and hence the trace are those of minus the
velocity gradient. Missing: `L` itself, which is transposed, see
`usl_velocity_gradient_transposed` and `usl_velocity_gradient_wrong`. -/
theorem usl_strain_rate_partial (hdim : dim = 2 ∨ dim = 3) (ker : Kernel) (o e : Fin dim → K)
    (h : K) (hh : 0 < h) (pad : ℕ) (hpad : 2 ≤ pad) (s : MPState K dim n)
    (p : Fin n) (hx : InBox o e (s.position p))
    (hlin : ker = .linear → ∀ d, ∀ z : ℤ, (s.position p d - o d) / h ≠ z)
    (gr : GridArrays K dim) (b : Fin dim → K) (A : Fin dim → Fin dim → K)
    (hA : AffineNodes uslCutoff (GridDomain.create o e h pad)
      (compute ker (GridDomain.create o e h pad) s.position) gr p b A) (alpha dt : K) (i j : Fin dim) :
    let L := (g2pBody alpha dt (compute ker (GridDomain.create o e h pad) s.position) none gr s).L p
    L ⟨i, by omega⟩ ⟨j, by omega⟩ + L ⟨j, by omega⟩ ⟨i, by omega⟩ = -(A i j + A j i) := by
  intro L
  have := usl_velocity_gradient_transposed hdim ker o e h hh pad hpad s p hx hlin gr b A hA alpha dt
  simp only [L, this]; ring

/-- **C14** (ASFLIP). The stored `L` is minus the velocity gradient. -/
theorem aflip_velocity_gradient (hdim : dim = 2 ∨ dim = 3) (ker : Kernel) (o e : Fin dim → K)
    (h : K) (hh : 0 < h) (pad : ℕ) (hpad : 2 ≤ pad) (s : MPState K dim n)
    (p : Fin n) (hx : InBox o e (s.position p))
    (hlin : ker = .linear → ∀ d, ∀ z : ℤ, (s.position p d - o d) / h ≠ z)
    (sqrt : K → K) (pr : AflipParams K) (hcut : 0 ≤ pr.cutoff)
    (gr : GridArrays K dim) (b : Fin dim → K) (A : Fin dim → Fin dim → K)
    (hA : AffineNodes pr.cutoff (GridDomain.create o e h pad)
      (compute ker (GridDomain.create o e h pad) s.position) gr p b A) (dt : K)
    (r : MPState K dim n × (Fin n → Mat3 K))
    (hr : aflipG2pBody sqrt pr h dt (compute ker (GridDomain.create o e h pad) s.position) gr s = .ok r)
    (i j : Fin dim) : r.1.L p ⟨i, by omega⟩ ⟨j, by omega⟩ = -A i j := by
  have hr' := (aflipG2pBody_ok hr).symm
  rw [← affine_gather hdim ker o e h hh pad hpad s.position p hx hlin pr.cutoff hcut gr b A hA i j,
    ← hr']
  refine (set22_planar hdim _ i j).trans ?_
  unfold aflipGather pointSum
  dsimp only
  rw [← Finset.sum_neg_distrib]
  refine Finset.sum_congr rfl fun q _ => ?_
  simp only [pad3_lt _ (⟨i, by omega⟩ : Fin 3) i.isLt]
  ring

end

/-- Nodal state of simple shear `v = (y, 0)` with unit mass on every node of the unit-square grid. -/
def shearGrid : GridArrays ℚ 2 :=
  { mass := fun _ => 1
    moment := fun _ _ => 0
    momentNt := fun j a => if a = 0 then
      (GridDomain.create (fun _ => (0:ℚ)) (fun _ : Fin 2 => 1) (1/4) 2).positionStack j 1 else 0
    force := fun _ _ => 0 }

theorem shearGrid_affine (ker : Kernel) (s : MPState ℚ 2 n) (p : Fin n) (cut : ℚ) (hcut : cut < 1) :
    AffineNodes cut (GridDomain.create (fun _ => (0:ℚ)) (fun _ => 1) (1/4) 2)
      (compute ker (GridDomain.create (fun _ => (0:ℚ)) (fun _ => 1) (1/4) 2) s.position) shearGrid p
      (fun _ => 0) (fun a k => if a = 0 ∧ k = 1 then 1 else 0) := by
  refine ⟨fun j _ a => ?_, fun _ _ _ => hcut⟩
  simp only [shearGrid, Fin.sum_univ_two]
  by_cases ha : a = 0 <;> simp [ha]

/-- **C14** is false for the USL solver: in simple shear `v = (y, 0)` the point gets `L[1,0] = -1` and
`L[0,1] = 0` instead of `L[0,1] = -dv_0/dx_1 = -1`. -/
theorem usl_velocity_gradient_wrong :
    let g := GridDomain.create (fun _ => (0:ℚ)) (fun _ : Fin 2 => 1) (1/4) 2
    let L := (g2pBody 0 1 (compute .cubic g exBody.position) none shearGrid exBody).L 0
    L 1 0 = -1 ∧ L 0 1 = 0 := by
  have key := usl_velocity_gradient_transposed (.inl rfl) .cubic (fun _ => (0:ℚ)) (fun _ => 1) (1/4)
    (by norm_num) 2 le_rfl exBody 0 (exBody_inBox 0) (by simp) shearGrid _ _
    (shearGrid_affine .cubic exBody 0 uslCutoff (by norm_num [uslCutoff])) 0 1
  refine ⟨(key 1 0).trans (by simp), (key 0 1).trans (by simp)⟩

example := usl_strain_rate_partial (.inl rfl) .quadratic (fun _ => (0:ℚ)) (fun _ => 1) (1/4)
    (by norm_num) 2 le_rfl exBody 0 (exBody_inBox 0) (by simp) shearGrid _ _
    (shearGrid_affine .quadratic exBody 0 uslCutoff (by norm_num [uslCutoff])) 0 1 0 1
/-- Default parameters of `USLAFLIP` (usl_asflip.py:93-163). -/
def exAflip : AflipParams ℚ :=
  { alpha := 99 / 100, useDynamicAlpha := false, betaMin := 0, betaMax := 0, useMls := true,
    cutoff := 1 / 10 ^ 12, cfl := 1 / 2 }
example (sqrt : ℚ → ℚ) (r) := aflip_velocity_gradient (.inl rfl) .quadratic (fun _ => (0:ℚ))
    (fun _ => 1) (1/4)
    (by norm_num) 2 le_rfl exBody 0 (exBody_inBox 0) (by simp) sqrt exAflip (by norm_num [exAflip])
    shearGrid _ _ (shearGrid_affine .quadratic exBody 0 _ (by norm_num [exAflip])) (1/100) r
example (sqrt : ℚ → ℚ) : ∃ r, aflipG2pBody sqrt exAflip (1/4) (1/100) (compute .quadratic
    (GridDomain.create (fun _ => (0:ℚ)) (fun _ => 1) (1/4) 2) exBody.position) shearGrid exBody = .ok r :=
  ⟨_, rfl⟩

section
variable {K : Type*} [Field K] [LinearOrder K] [IsStrictOrderedRing K] [FloorRing K] {dim n : ℕ}

/-- **C20** (P2G). Kinetic energy on the grid is at most that of the points. -/
theorem p2g_kinetic_energy (hdim : dim = 2 ∨ dim = 3) (ker : Kernel) (o e : Fin dim → K) (h : K)
    (hh : 0 < h) (pad : ℕ) (hpad : 2 ≤ pad) (s : MPState K dim n)
    (hx : ∀ p, InBox o e (s.position p)) (hm : ∀ p, 0 ≤ s.mass p) (cut : K) (hcut : 0 ≤ cut) :
    let g := GridDomain.create o e h pad
    let gr := p2gBody (compute ker g s.position) s GridArrays.new
    gridKE g.numCells cut gr.mass gr.moment ≤ ∑ p, s.KE p := by
  intro g gr
  have hc := goodCache_of_inBox hdim ker o e h hh pad hpad s.position hx
  exact p2g_ke hc s hm cut hcut

/-- **C20** (G2P). Points that take the interpolated velocity (`alpha = 0`) have at most the kinetic
energy of the grid, whatever momenta forces and obstacles left there. -/
theorem pic_g2p_kinetic_energy (hdim : dim = 2 ∨ dim = 3) (ker : Kernel) (o e : Fin dim → K) (h : K)
    (hh : 0 < h) (pad : ℕ) (hpad : 2 ≤ pad) (s : MPState K dim n)
    (hx : ∀ p, InBox o e (s.position p)) (hm : ∀ p, 0 ≤ s.mass p) (dt : K)
    (mom momNt force : ℕ → Fin dim → K) :
    let g := GridDomain.create o e h pad
    let c := compute ker g s.position
    let gr : GridArrays K dim := ⟨(p2gBody c s GridArrays.new).mass, mom, momNt, force⟩
    ∑ p, (g2pBody 0 dt c none gr s).KE p ≤ gridKE g.numCells uslCutoff gr.mass gr.momentNt := by
  intro g c gr
  have hc := goodCache_of_inBox hdim ker o e h hh pad hpad s.position hx
  exact g2p_ke hc s hm dt _ (fun j => by simp [gr, c, g, p2g_mass hc, GridArrays.new])

/-- **C20** (step). Transfer to the grid, time integration without forces, and PIC transfer back never
increase kinetic energy. -/
theorem pic_step_kinetic_energy (hdim : dim = 2 ∨ dim = 3) (ker : Kernel) (o e : Fin dim → K) (h : K)
    (hh : 0 < h) (pad : ℕ) (hpad : 2 ≤ pad) (s : MPState K dim n)
    (hx : ∀ p, InBox o e (s.position p)) (hm : ∀ p, 0 ≤ s.mass p)
    (hf : s.force = fun _ _ => 0) (hσ : s.stress = fun _ => 0) (dt : K) :
    let c := compute ker (GridDomain.create o e h pad) s.position
    ∑ p, (g2pBody 0 dt c none (integrateBody dt (p2gBody c s GridArrays.new)) s).KE p
      ≤ ∑ p, s.KE p := by
  intro c
  have hc := goodCache_of_inBox hdim ker o e h hh pad hpad s.position hx
  have h1 := pic_g2p_kinetic_energy hdim ker o e h hh pad hpad s hx hm dt
    (p2gBody c s GridArrays.new).moment (integrateBody dt (p2gBody c s GridArrays.new)).momentNt
    (p2gBody c s GridArrays.new).force
  have h2 := p2g_kinetic_energy hdim ker o e h hh pad hpad s hx hm uslCutoff
    (by unfold uslCutoff; positivity)
  refine le_trans h1 (le_trans (le_of_eq ?_) h2)
  have hforce : ∀ j a, (p2gBody c s GridArrays.new).force j a = 0 := by
    intro j a
    rw [p2g_force hc]
    refine scatterAdd_eq_zero _ _ _ fun i _ => ?_
    simp [hf, hσ, internTerm, trunc3]
  have hnt : (integrateBody dt (p2gBody c s GridArrays.new)).momentNt
      = (p2gBody c s GridArrays.new).moment := by
    funext j a
    simp [integrateBody, hforce]
  simp only [hnt]
  rfl

end

example := p2g_kinetic_energy (.inl rfl) .cubic (fun _ => (0:ℚ)) (fun _ => 1) (1/4) (by norm_num) 2
  le_rfl exBody exBody_inBox (by intro p; fin_cases p <;> norm_num [exBody, MPState.create]) 0 le_rfl
example := pic_g2p_kinetic_energy (.inl rfl) .linear (fun _ => (0:ℚ)) (fun _ => 1) (1/4) (by norm_num) 2
  le_rfl exBody exBody_inBox (by intro p; fin_cases p <;> norm_num [exBody, MPState.create]) (1/100)
  (fun _ _ => 0) (fun j a => j + a) (fun _ _ => 0)
example := pic_step_kinetic_energy (.inl rfl) .cubic (fun _ => (0:ℚ)) (fun _ => 1) (1/4) (by norm_num) 2
  le_rfl { exBody with stress := fun _ => 0 } exBody_inBox
  (by intro p; fin_cases p <;> norm_num [exBody, MPState.create]) rfl rfl (1/100)

end Hydrax
