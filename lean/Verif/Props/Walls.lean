import Verif.Lemmas.SceneWall
import Verif.Props.Contact
import Verif.Props.Mapping
import Verif.Props.Sdf
import Verif.Props.Invariants
import Verif.Props.Momentum
import Verif.Props.LatticeSymmetry

/-!
# Walls hold the points (C118)
-/

set_option linter.unusedSectionVars false

namespace Hydrax
open Spec

/-- How many cells the window of a kernel reaches from the point along each axis. -/
def Spec.reach : Kernel → ℚ
  | .linear => 1
  | .quadratic => 3 / 2
  | .cubic => 2

section
variable {K : Type*} [Field K] [LinearOrder K] [IsStrictOrderedRing K] [FloorRing K] {dim : ℕ}

/-- Offsets to the nodes of the window, per axis. -/
theorem distVec_reach (ker : Kernel) (g : GridDomain K dim) (xp : Fin dim → K) (s : ℕ) (a : Fin dim)
    (hs : s < windowSize ker dim) : |distVec ker g xp s a| ≤ (reach ker : K) := by
  rw [distVec_apply]
  have hj : unravel dim (fun _ => winLen ker) s a < winLen ker :=
    unravel_lt dim (fun _ => winLen ker) s (by simpa [windowSize] using hs) a
  have ho := off_le ker ⟨_, hj⟩
  simp only at ho
  generalize off ker (unravel dim (fun _ => winLen ker) s a) = j at ho ⊢
  generalize basePos g xp a = t
  have c1 : ((offLo ker : ℤ) : K) ≤ (j : K) := by exact_mod_cast ho.1
  have c2 : (j : K) ≤ ((offHi ker : ℤ) : K) := by exact_mod_cast ho.2
  rw [abs_le]
  cases ker
  · have h0 := Int.floor_le t
    have h1 := Int.lt_floor_add_one t
    simp only [offLo, offHi, baseId, reach] at *
    push_cast at *
    constructor <;> linarith
  · have h0 := Int.floor_le (t - 1 / 2)
    have h1 := Int.lt_floor_add_one (t - 1 / 2)
    simp only [offLo, offHi, baseId, reach] at *
    push_cast at *
    constructor <;> linarith
  · have h0 := Int.floor_le t
    have h1 := Int.lt_floor_add_one t
    simp only [offLo, offHi, baseId, reach] at *
    push_cast at *
    constructor <;> linarith

/-- Nodes with weight lie within reach of the point. -/
theorem slot_reach {n : ℕ} (ker : Kernel) (o e : Fin dim → K) (h : K) (hh : 0 < h) (pad : ℕ) (pos : Fin n → Fin dim → K)
    (i) (hi : (compute ker (GridDomain.create o e h pad) pos).shapeVal i ≠ 0) (a : Fin dim) :
    |(GridDomain.create o e h pad).positionStack ((compute ker (GridDomain.create o e h pad) pos).nodeHash i) a -
      pos ((compute ker (GridDomain.create o e h pad) pos).pointId i) a| ≤ (reach ker : K) * h := by
  set g := GridDomain.create o e h pad with hgdef
  have hg : g.cellSize * g.invCellSize = 1 := create_inv o e h hh pad
  have hc : g.cellSize = h := rfl
  have hv : isValid g.gridSize (nodeIdx ker g (pos i.divNat) i.modNat.val) := by
    by_contra hv
    exact hi (if_neg hv)
  have e1 : g.positionStack ((compute ker g pos).nodeHash i) = latticePos g (nodeIdx ker g (pos i.divNat) i.modNat.val) := by
    rw [← positionStack_nodeHashOf g _ hv, ← clipHash_of_valid g _ hv]; rfl
  have e2 : (compute ker g pos).pointId i = i.divNat := rfl
  rw [e1, e2, latticePos_nodeIdx ker g hg, hc, sub_sub_cancel_left, abs_neg, abs_mul, abs_of_pos hh, mul_comm]
  exact mul_le_mul_of_nonneg_right (distVec_reach ker g _ _ a i.modNat.isLt) hh.le

/-- Two nodes of the window of the linear kernel are at most one cell apart along each axis. -/
theorem slot_linear {n : ℕ} (o e : Fin dim → K) (h : K) (hh : 0 < h) (pad : ℕ) (pos : Fin n → Fin dim → K)
    (i j) (hi : (compute .linear (GridDomain.create o e h pad) pos).shapeVal i ≠ 0)
    (hj : (compute .linear (GridDomain.create o e h pad) pos).shapeVal j ≠ 0)
    (hij : (compute .linear (GridDomain.create o e h pad) pos).pointId i =
      (compute .linear (GridDomain.create o e h pad) pos).pointId j) (a : Fin dim) :
    (GridDomain.create o e h pad).positionStack ((compute .linear (GridDomain.create o e h pad) pos).nodeHash i) a ≤
      (GridDomain.create o e h pad).positionStack ((compute .linear (GridDomain.create o e h pad) pos).nodeHash j) a + h := by
  set g := GridDomain.create o e h pad with hgdef
  have hc : g.cellSize = h := rfl
  have key : ∀ i, (compute .linear g pos).shapeVal i ≠ 0 → ∃ m : ℤ,
      g.positionStack ((compute .linear g pos).nodeHash i) a =
        (⌊basePos g (pos ((compute .linear g pos).pointId i)) a⌋ + m : K) * h + g.origin a ∧ 0 ≤ m ∧ m ≤ 1 := by
    intro i hi
    have hv : isValid g.gridSize (nodeIdx .linear g (pos i.divNat) i.modNat.val) := by
      by_contra hv
      exact hi (if_neg hv)
    have e1 : g.positionStack ((compute .linear g pos).nodeHash i) =
        latticePos g (nodeIdx .linear g (pos i.divNat) i.modNat.val) := by
      rw [← positionStack_nodeHashOf g _ hv, ← clipHash_of_valid g _ hv]; rfl
    have hj : unravel dim (fun _ => winLen .linear) i.modNat.val a < winLen .linear :=
      unravel_lt dim (fun _ => winLen .linear) _ (by simp [windowSize]) a
    have ho := off_le .linear ⟨_, hj⟩
    refine ⟨off .linear (unravel dim (fun _ => winLen .linear) i.modNat.val a), ?_, ho.1, ho.2⟩
    rw [e1]
    unfold latticePos nodeIdx baseId
    rw [hc]
    push_cast
    rfl
  obtain ⟨m, e1, m0, m1⟩ := key i hi
  obtain ⟨m', e2, m0', m1'⟩ := key j hj
  rw [e1, e2, hij]
  have : (m : K) ≤ (m' : K) + 1 := by exact_mod_cast (by omega : m ≤ m' + 1)
  nlinarith

theorem slot_linear' {n : ℕ} (ker : Kernel) (hk : ker = .linear) (o e : Fin dim → K) (h : K) (hh : 0 < h) (pad : ℕ)
    (pos : Fin n → Fin dim → K)
    (i j) (hi : (compute ker (GridDomain.create o e h pad) pos).shapeVal i ≠ 0)
    (hj : (compute ker (GridDomain.create o e h pad) pos).shapeVal j ≠ 0)
    (hij : (compute ker (GridDomain.create o e h pad) pos).pointId i =
      (compute ker (GridDomain.create o e h pad) pos).pointId j) (a : Fin dim) :
    (GridDomain.create o e h pad).positionStack ((compute ker (GridDomain.create o e h pad) pos).nodeHash i) a ≤
      (GridDomain.create o e h pad).positionStack ((compute ker (GridDomain.create o e h pad) pos).nodeHash j) a + h := by
  subst hk
  exact slot_linear o e h hh pad pos i j hi hj hij a

end

/-! ### A flat wall -/

section
variable {dim : ℕ} {SS : Type*}

/-- Height of `x` above the plane `b + A·x = 0`. -/
def Spec.height {K : Type*} [Field K] (b : K) (A x : Fin dim → K) : K := b + ∑ a, A a * x a

/-- An obstacle in state `s` that looks, at the points of `near`, like a fixed flat wall with unit normal `A`. -/
structure Spec.FlatWall (o : SdfLogic ℝ dim SS) (s : SS) (dt b : ℝ) (A : Fin dim → ℝ)
    (near : (Fin dim → ℝ) → Prop) : Prop where
  unit : ∑ a, A a * A a = 1
  dist : ∀ x, near x → o.dist s x = height b A x
  normal : ∀ x, near x → o.normal s x = A
  still : ∀ x, near x → ∀ a, o.velocity s x dt a = 0

end

section
variable {z : Sz} {dim : ℕ} {SS LS : Type*} {sv : Solver z ℝ dim SS LS (ForceState ℝ dim)}

/-- The hypotheses on the scene: the last force is the collider with obstacle `d`, acting once on the grid of `c`. -/
structure Spec.WallScene (sv : Solver z ℝ dim SS LS (ForceState ℝ dim)) (c : Coupling z) (d : Fin z.D)
    (o e : Fin dim → ℝ) (h : ℝ) (pad : ℕ) : Prop where
  laws : ∀ l, (sv.laws l).OnlyStress
  forces : ∀ f ∈ sv.forces, LibForce f
  last : ∃ pre gs gap base, sv.forces = pre ++ [sdfColliderForce realFns (some d) gs gap base] ∧ gs.Nodup ∧ c.g ∈ gs
  once : (sv.couplings.map (·.p)).Nodup
  mem : c ∈ sv.couplings
  active : c.skip = false
  grid : sv.domains c.g = GridDomain.create o e h pad
  size : 0 < h
  pad : 2 ≤ pad

/-- What a step does to a point: it moves by the weighted mean of the nodal displacements, and the collider has had the
last word on these. -/
theorem wall_step {c : Coupling z} {d : Fin z.D} {o e : Fin dim → ℝ} {h : ℝ} {pad : ℕ}
    (W : WallScene sv c d o e h pad) {st st' : SimState z ℝ dim SS LS (ForceState ℝ dim)}
    (hc : uslCall realFns sv st = .ok st') {b : ℝ} {A : Fin dim → ℝ} {near : (Fin dim → ℝ) → Prop}
    (F : FlatWall (sv.sdfs d) ((sv.sdfs d).updateKin (st.world.sdfs d) st.dt) st.dt b A near) :
    ∃ gr, uslGrids realFns sv st = .ok gr ∧
    let I := compute c.ker (sv.domains c.g) (st.world.bodies c.p).position
    let v := fun i a => nodeVel uslCutoff ((gr c.g).mass (I.nodeHash i)) ((gr c.g).momentNt (I.nodeHash i) a)
    (∀ i, near ((sv.domains c.g).positionStack (I.nodeHash i)) →
      height b A ((sv.domains c.g).positionStack (I.nodeHash i)) ≤ h → 0 ≤ ∑ a, A a * v i a) ∧
    ∀ q, height b A ((st'.world.bodies c.p).position q) = height b A ((st.world.bodies c.p).position q) +
      st.dt * ∑ i with I.pointId i = q, I.shapeVal i * ∑ a, A a * v i a := by
  obtain ⟨pre, gs, gap, base, hfs, hgs, hcg⟩ := W.last
  obtain ⟨s, s1, σ, x, y, hb, hsame, hgr, hlast, hgeo, hb'⟩ :=
    usl_unique W.laws pre _ hfs W.forces W.once hc c W.mem W.active
  obtain ⟨y', hy', -, -, hcol, -⟩ := sdf_collider_hook d gap base st.dt st.time gs hgs x
  rw [hlast] at hy'
  obtain rfl := Except.ok.inj hy'
  have C := hcol c.g hcg
  refine ⟨_, hgr, ?_⟩
  intro I v
  have hpos : (st.world.bodies c.p).position = s.position := by rw [hb]; rfl
  refine ⟨fun i hn hd => ?_, fun q => ?_⟩
  · by_cases hm : (y.cache.grids c.g).mass (I.nodeHash i) > uslCutoff
    · have hm' : (1 : ℝ) / 10 ^ 14 < (x.cache.grids c.g).mass (I.nodeHash i) := by
        rw [← C.same.1]
        refine lt_trans ?_ hm
        unfold uslCutoff; norm_num
      have := C.noPenetration (I.nodeHash i) hm' (by
          rw [hgeo]
          change (sv.sdfs d).dist _ _ - (sv.domains c.g).cellSize * 1 ≤ 0
          rw [F.dist _ hn, W.grid] at *
          change _ - h * 1 ≤ 0
          linarith) (by
          rw [hgeo]
          change Spec.dot ((sv.sdfs d).normal _ _) ((sv.sdfs d).normal _ _) = 1
          rw [F.normal _ hn]; exact F.unit)
      rw [hgeo] at this
      change 0 ≤ Spec.dot (fun a => _ - (sv.sdfs d).velocity _ _ _ a) ((sv.sdfs d).normal _ _) at this
      rw [F.normal _ hn] at this
      refine this.trans_eq (Finset.sum_congr rfl fun a _ => ?_)
      simp only [F.still _ hn, sub_zero, v, nodeVel, if_pos hm, Spec.nodeVelocity]
      ring
    · refine le_of_eq (Finset.sum_eq_zero fun a _ => ?_).symm
      simp only [v, nodeVel, if_neg hm, mul_zero]
  · have e1 : (st'.world.bodies c.p).position q = fun a => s.position q a +
        pointSum I (fun i => I.shapeVal i * v i a) q * st.dt := by
      rw [hb']
      have hr : ∀ t : MPState ℝ dim (z.np c.p), (removeShear realFns (sv.laws c.c).requiresFReset t).position =
          t.position := by
        intro t; unfold removeShear; split_ifs <;> rfl
      change (removeShear _ _ _).position q = _
      rw [hr]
      have : s1.position = s.position := by rw [hsame]
      funext a
      change s1.position q a + _ = _
      rw [this]
      simp only [I, v, hpos]
      rfl
    rw [e1, hpos]
    unfold height
    simp only [mul_add, Finset.sum_add_distrib, pointSum]
    rw [add_assoc, add_right_inj, add_right_inj]
    simp only [Finset.sum_mul, Finset.mul_sum]
    rw [Finset.sum_comm]
    refine Finset.sum_congr rfl fun i _ => Finset.sum_congr rfl fun a _ => ?_
    ring

/-- Height of a place within reach of `x`. -/
theorem height_reach {b r : ℝ} {A x y : Fin dim → ℝ} (hy : ∀ a, |y a - x a| ≤ r) :
    |height b A y - height b A x| ≤ r * ∑ a, |A a| := by
  have : height b A y - height b A x = ∑ a, A a * (y a - x a) := by
    unfold height
    rw [add_sub_add_left_eq_sub, ← Finset.sum_sub_distrib]
    exact Finset.sum_congr rfl fun a _ => by ring
  rw [this, Finset.mul_sum]
  refine (Finset.abs_sum_le_sum_abs _ _).trans (Finset.sum_le_sum fun a _ => ?_)
  rw [abs_mul, mul_comm]
  exact mul_le_mul_of_nonneg_right (hy a) (abs_nonneg _)

/-- The places the obstacle must look flat at, for a point at `x`: those within the reach of the kernel and not more than
one cell above the wall. -/
def Spec.Felt (ker : Kernel) (h b : ℝ) (A x y : Fin dim → ℝ) : Prop :=
  (∀ a, |y a - x a| ≤ (reach ker : ℝ) * h) ∧ height b A y ≤ h

/-- **C118**, one step. A point below `h (1 - reach·∑|A|)` never comes closer to the wall, whatever the other forces, stresses and
velocities are. -/
theorem wall_holds {c : Coupling z} {d : Fin z.D} {o e : Fin dim → ℝ} {h : ℝ} {pad : ℕ}
    (W : WallScene sv c d o e h pad) {st st' : SimState z ℝ dim SS LS (ForceState ℝ dim)} (hdt : 0 ≤ st.dt)
    (hc : uslCall realFns sv st = .ok st') {b : ℝ} {A : Fin dim → ℝ} (q : Fin (z.np c.p))
    (F : FlatWall (sv.sdfs d) ((sv.sdfs d).updateKin (st.world.sdfs d) st.dt) st.dt b A
      (Felt c.ker h b A ((st.world.bodies c.p).position q)))
    (hl : height b A ((st.world.bodies c.p).position q) ≤ h - (reach c.ker : ℝ) * h * ∑ a, |A a|) :
    height b A ((st.world.bodies c.p).position q) ≤ height b A ((st'.world.bodies c.p).position q) := by
  obtain ⟨gr, -, hv, hq⟩ := wall_step W hc F
  rw [hq q]
  refine le_add_of_nonneg_right (mul_nonneg hdt (Finset.sum_nonneg fun i hi => ?_))
  have hi := (Finset.mem_filter.mp hi).2
  by_cases h0 : (compute c.ker (sv.domains c.g) (st.world.bodies c.p).position).shapeVal i = 0
  · rw [h0, zero_mul]
  have hr : ∀ a, _ := slot_reach c.ker o e h W.size pad (st.world.bodies c.p).position i (by rw [← W.grid]; exact h0)
  rw [← W.grid, hi] at hr
  have hh := height_reach (b := b) (A := A) hr
  have hle := (abs_le.mp hh).2
  exact mul_nonneg (computeSingle_val_nonneg _ _ _ _) (hv i ⟨hr, by linarith⟩ (by linarith))

/-- **C118**, any number of steps. If no step takes the point more than `r` towards the wall, it never gets more than `r` below the
lower of its first height and `h (1 - reach·∑|A|)`. -/
theorem wall_holds_run {c : Coupling z} {d : Fin z.D} {o e : Fin dim → ℝ} {h : ℝ} {pad : ℕ}
    (W : WallScene sv c d o e h pad) (n : ℕ) {st st' : SimState z ℝ dim SS LS (ForceState ℝ dim)} (hdt : 0 ≤ st.dt)
    (hc : runSteps (uslCall realFns sv) n st = .ok st') {b r : ℝ} {A : Fin dim → ℝ} (q : Fin (z.np c.p))
    (F : AlongRun realFns sv n st fun w => FlatWall (sv.sdfs d) ((sv.sdfs d).updateKin (w.sdfs d) st.dt) st.dt b A
      (Felt c.ker h b A ((w.bodies c.p).position q)))
    (hs : ∀ i < n, ∀ si si', runSteps (uslCall realFns sv) i st = .ok si → uslCall realFns sv si = .ok si' →
      height b A ((si.world.bodies c.p).position q) - r ≤ height b A ((si'.world.bodies c.p).position q)) :
    min (height b A ((st.world.bodies c.p).position q)) (h - (reach c.ker : ℝ) * h * (∑ a, |A a|) - r) ≤
      height b A ((st'.world.bodies c.p).position q) ∧ st'.dt = st.dt := by
  induction n generalizing st' with
  | zero =>
    have : st = st' := by simpa [runSteps] using hc
    subst this
    exact ⟨min_le_left _ _, rfl⟩
  | succ n ih =>
    obtain ⟨s1, h1, h2⟩ := runSteps_succ_ok.mp hc
    obtain ⟨e1, e2⟩ := ih h1 (fun i hi => F i (by omega)) (fun i hi => hs i (by omega))
    refine ⟨?_, (usl_sdfs W.forces h2).2.trans e2⟩
    rcases le_or_gt (height b A ((s1.world.bodies c.p).position q)) (h - (reach c.ker : ℝ) * h * ∑ a, |A a|) with hl | hl
    · exact e1.trans (wall_holds W (by rw [e2]; exact hdt) h2 q (by rw [e2]; exact F n (by omega) s1 h1) hl)
    · have := hs n (by omega) s1 st' h1 h2
      exact (min_le_right _ _).trans (by linarith)

/-! ### The linear kernel -/

/-- One cell per step: after the forces no node of the grid of `c` moves more than `h` along `A` against it in one step. -/
def Spec.OneCell (sv : Solver z ℝ dim SS LS (ForceState ℝ dim)) (st : SimState z ℝ dim SS LS (ForceState ℝ dim)) (g : Fin z.G)
    (h : ℝ) (A : Fin dim → ℝ) : Prop :=
  ∀ gr, uslGrids realFns sv st = .ok gr → ∀ j, -h ≤ st.dt * ∑ a, A a * nodeVel uslCutoff ((gr g).mass j) ((gr g).momentNt j a)

/-- **C118**, linear kernel. A wall along an axis lets no point through: a point on its inner side stays there if no node moves
more than one cell in the step. -/
theorem wall_tight {c : Coupling z} {d : Fin z.D} {o e : Fin dim → ℝ} {h : ℝ} {pad : ℕ}
    (W : WallScene sv c d o e h pad) (hk : c.ker = .linear)
    {st st' : SimState z ℝ dim SS LS (ForceState ℝ dim)} (hdt : 0 ≤ st.dt)
    (hc : uslCall realFns sv st = .ok st') {b : ℝ} {A : Fin dim → ℝ} (q : Fin (z.np c.p)) (hA : ∑ a, |A a| = 1)
    (F : FlatWall (sv.sdfs d) ((sv.sdfs d).updateKin (st.world.sdfs d) st.dt) st.dt b A
      (Felt c.ker h b A ((st.world.bodies c.p).position q)))
    (hin : InBox o e ((st.world.bodies c.p).position q))
    (hv : OneCell sv st c.g h A)
    (hl : 0 ≤ height b A ((st.world.bodies c.p).position q)) :
    0 ≤ height b A ((st'.world.bodies c.p).position q) := by
  obtain ⟨gr, hgr, hn, hq⟩ := wall_step W hc F
  have hcell := hv gr hgr
  set I := compute c.ker (sv.domains c.g) (st.world.bodies c.p).position with hI
  have haff := affine_field_reproduced c.ker o e h W.size pad W.pad (st.world.bodies c.p).position q hin b A
  simp only [← W.grid] at haff
  have hval : ∀ i, 0 ≤ I.shapeVal i := fun i => computeSingle_val_nonneg _ _ _ _
  have hreach : ∀ i, I.pointId i = q → I.shapeVal i ≠ 0 → ∀ a,
      |(sv.domains c.g).positionStack (I.nodeHash i) a - (st.world.bodies c.p).position q a| ≤ (reach c.ker : ℝ) * h := by
    intro i hi h0
    have hr : ∀ a, _ := slot_reach c.ker o e h W.size pad (st.world.bodies c.p).position i (by rw [← W.grid]; exact h0)
    rw [← W.grid, ← hI, hi] at hr
    exact hr
  have hpair : ∀ i j, I.pointId i = q → I.pointId j = q → I.shapeVal i ≠ 0 → I.shapeVal j ≠ 0 →
      height b A ((sv.domains c.g).positionStack (I.nodeHash i)) ≤
        height b A ((sv.domains c.g).positionStack (I.nodeHash j)) + h := by
    intro i j hi hj hi0 hj0
    have key : ∀ i j, I.pointId i = q → I.pointId j = q → I.shapeVal i ≠ 0 → I.shapeVal j ≠ 0 → ∀ a,
        (sv.domains c.g).positionStack (I.nodeHash i) a ≤ (sv.domains c.g).positionStack (I.nodeHash j) a + h := by
      intro i j hi hj hi0 hj0 a
      have := slot_linear' c.ker hk o e h W.size pad (st.world.bodies c.p).position
      simp only [← W.grid] at this
      exact this i j hi0 hj0 (hi.trans hj.symm) a
    have := height_reach (b := b) (A := A) (r := h) (x := (sv.domains c.g).positionStack (I.nodeHash j))
      (y := (sv.domains c.g).positionStack (I.nodeHash i)) (fun a => by
        rw [abs_le]
        have h1 := key i j hi hj hi0 hj0 a
        have h2 := key j i hj hi hj0 hi0 a
        constructor <;> linarith)
    rw [hA, mul_one] at this
    have := (abs_le.mp this).2
    linarith
  by_cases hall : ∀ i, I.pointId i = q → I.shapeVal i ≠ 0 →
      height b A ((sv.domains c.g).positionStack (I.nodeHash i)) ≤ h
  · rw [hq q]
    refine add_nonneg hl (mul_nonneg hdt (Finset.sum_nonneg fun i hi => ?_))
    have hi := (Finset.mem_filter.mp hi).2
    by_cases h0 : I.shapeVal i = 0
    · rw [h0, zero_mul]
    exact mul_nonneg (hval i) (hn i ⟨hreach i hi h0, hall i hi h0⟩ (hall i hi h0))
  · push Not at hall
    obtain ⟨j, hj, hj0, hjh⟩ := hall
    rw [hq q]
    have e1 : height b A ((st.world.bodies c.p).position q) = ∑ i with I.pointId i = q,
        I.shapeVal i * height b A ((sv.domains c.g).positionStack (I.nodeHash i)) := haff.symm
    rw [e1, Finset.mul_sum, ← Finset.sum_add_distrib]
    refine Finset.sum_nonneg fun i hi => ?_
    have hi := (Finset.mem_filter.mp hi).2
    by_cases h0 : I.shapeVal i = 0
    · rw [h0, zero_mul, zero_mul, mul_zero, add_zero]
    have hpos := hpair j i hj hi hj0 h0
    have : ∀ x y w : ℝ, w * x + st.dt * (w * y) = w * (x + st.dt * y) := fun x y w => by ring
    rw [this]
    refine mul_nonneg (hval i) ?_
    rcases le_or_gt (height b A ((sv.domains c.g).positionStack (I.nodeHash i))) h with hi1 | hi1
    · exact add_nonneg (by linarith) (mul_nonneg hdt (hn i ⟨hreach i hi h0, hi1⟩ hi1))
    · have := hcell (I.nodeHash i)
      linarith

/-- **C118**, linear kernel, any number of steps. -/
theorem wall_tight_run {c : Coupling z} {d : Fin z.D} {o e : Fin dim → ℝ} {h : ℝ} {pad : ℕ}
    (W : WallScene sv c d o e h pad) (hk : c.ker = .linear) (n : ℕ)
    {st st' : SimState z ℝ dim SS LS (ForceState ℝ dim)} (hdt : 0 ≤ st.dt)
    (hc : runSteps (uslCall realFns sv) n st = .ok st') {b : ℝ} {A : Fin dim → ℝ} (q : Fin (z.np c.p)) (hA : ∑ a, |A a| = 1)
    (F : AlongRun realFns sv n st fun w => FlatWall (sv.sdfs d) ((sv.sdfs d).updateKin (w.sdfs d) st.dt) st.dt b A
      (Felt c.ker h b A ((w.bodies c.p).position q)))
    (hin : AlongRun realFns sv n st fun w => InBox o e ((w.bodies c.p).position q))
    (hv : ∀ i < n, ∀ si, runSteps (uslCall realFns sv) i st = .ok si → OneCell sv si c.g h A)
    (hl : 0 ≤ height b A ((st.world.bodies c.p).position q)) :
    0 ≤ height b A ((st'.world.bodies c.p).position q) ∧ st'.dt = st.dt := by
  induction n generalizing st' with
  | zero =>
    have : st = st' := by simpa [runSteps] using hc
    subst this
    exact ⟨hl, rfl⟩
  | succ n ih =>
    obtain ⟨s1, h1, h2⟩ := runSteps_succ_ok.mp hc
    obtain ⟨e1, e2⟩ := ih h1 (fun i hi => F i (by omega)) (fun i hi => hin i (by omega)) (fun i hi => hv i (by omega))
    exact ⟨wall_tight W hk (by rw [e2]; exact hdt) h2 q hA (by rw [e2]; exact F n (by omega) s1 h1) (hin n (by omega) s1 h1)
      (hv n (by omega) s1 h1) e1, (usl_sdfs W.forces h2).2.trans e2⟩

end

/-! ### The walls of the domain -/

section
variable {z : Sz} {m : ℕ} {LS : Type*} {sv : Solver z ℝ (m + 1) (SdfState ℝ (m + 1)) LS (ForceState ℝ (m + 1))}

/-- Inner normal of a wall of a box. -/
def Spec.boxNormal (upper : Bool) (a : Fin (m + 1)) : Fin (m + 1) → ℝ := fun b => if b = a then (if upper then -1 else 1) else 0

/-- Constant of the plane of a wall of a box. -/
def Spec.boxShift (d : DomainParams ℝ (m + 1)) (upper : Bool) (a : Fin (m + 1)) : ℝ := if upper then d.hi a else -d.lo a

theorem box_height (d : DomainParams ℝ (m + 1)) (upper : Bool) (a : Fin (m + 1)) (x : Fin (m + 1) → ℝ) :
    height (boxShift d upper a) (boxNormal upper a) x = wallDepth d.lo d.hi x upper a := by
  unfold height boxShift boxNormal wallDepth
  cases upper <;> simp [ite_mul] <;> ring

theorem box_abs (upper : Bool) (a : Fin (m + 1)) : ∑ b, |boxNormal (m := m) upper a b| = 1 := by
  have : ∀ b, |boxNormal (m := m) upper a b| = if b = a then 1 else 0 := by
    intro b
    unfold boxNormal
    split_ifs <;> simp
  simp [this]

/-- All other walls of the box are more than `r` away. -/
def Spec.OthersAway (d : DomainParams ℝ (m + 1)) (r : ℝ) (upper : Bool) (a : Fin (m + 1)) (x : Fin (m + 1) → ℝ) : Prop :=
  ∀ u b, (u, b) ≠ (upper, a) → r < wallDepth d.lo d.hi x u b

theorem box_flat (dp : DomainParams ℝ (m + 1)) (s : SdfState ℝ (m + 1)) (hs : ∀ x a, sdfVelocity s x a = 0) (ker : Kernel)
    (h dt : ℝ) (upper : Bool) (a : Fin (m + 1)) (x : Fin (m + 1) → ℝ)
    (ho : OthersAway dp (h + (reach ker : ℝ) * h) upper a x) :
    FlatWall (domainSdf dp) s dt (boxShift dp upper a) (boxNormal upper a)
      (Felt ker h (boxShift dp upper a) (boxNormal upper a) x) := by
  have key : ∀ y, Felt ker h (boxShift dp upper a) (boxNormal upper a) x y →
      domainDist dp y = wallDepth dp.lo dp.hi y upper a ∧ domainNormal dp y = boxNormal upper a := by
    rintro y ⟨h1, h2⟩
    rw [box_height] at h2
    obtain ⟨u, b, e1, e2, e3, -⟩ := (domain_walls dp).2.2 y
    have : (u, b) = (upper, a) := by
      by_contra hne
      have h3 := ho u b hne
      have h4 := e2 upper a
      have h5 := abs_le.mp (h1 b)
      unfold wallDepth at h2 h3 h4
      cases u <;> simp only [Bool.false_eq_true, if_false, if_true] at h2 h3 h4 <;> linarith
    obtain ⟨rfl, rfl⟩ := Prod.mk.inj this
    exact ⟨e1, funext e3⟩
  refine ⟨?_, fun y hy => ?_, fun y hy => (key y hy).2, fun y hy b => hs y b⟩
  · unfold boxNormal
    cases upper <;> simp
  · rw [box_height]; exact (key y hy).1

/-- **C118**, box. A point beyond `h (1 - reach)` of a wall and away from the other walls does not come closer to the wall. -/
theorem box_wall_holds {c : Coupling z} {d : Fin z.D} {o e : Fin (m + 1) → ℝ} {h : ℝ} {pad : ℕ}
    (W : WallScene sv c d o e h pad) (dp : DomainParams ℝ (m + 1)) (hd : sv.sdfs d = domainSdf dp)
    {st st' : SimState z ℝ (m + 1) (SdfState ℝ (m + 1)) LS (ForceState ℝ (m + 1))} (hdt : 0 ≤ st.dt)
    (hs : ∀ x a, sdfVelocity (st.world.sdfs d) x a = 0)
    (hc : uslCall realFns sv st = .ok st') (q : Fin (z.np c.p)) (upper : Bool) (a : Fin (m + 1))
    (ho : OthersAway dp (h + (reach c.ker : ℝ) * h) upper a ((st.world.bodies c.p).position q))
    (hl : wallDepth dp.lo dp.hi ((st.world.bodies c.p).position q) upper a ≤ h * (1 - (reach c.ker : ℝ))) :
    wallDepth dp.lo dp.hi ((st.world.bodies c.p).position q) upper a ≤
      wallDepth dp.lo dp.hi ((st'.world.bodies c.p).position q) upper a := by
  have := wall_holds W hdt hc (b := boxShift dp upper a) (A := boxNormal upper a) q
    (by rw [hd]; exact box_flat dp _ hs c.ker h st.dt upper a _ ho)
    (by rw [box_height, box_abs]; linarith)
  rwa [box_height, box_height] at this

/-- The state of a domain obstacle never changes. -/
theorem box_state (hf : ∀ f ∈ sv.forces, LibForce f) {d : Fin z.D} {dp : DomainParams ℝ (m + 1)} (hd : sv.sdfs d = domainSdf dp)
    (n : ℕ) {st st' : SimState z ℝ (m + 1) (SdfState ℝ (m + 1)) LS (ForceState ℝ (m + 1))}
    (hc : runSteps (uslCall realFns sv) n st = .ok st') : st'.world.sdfs d = st.world.sdfs d := by
  induction n generalizing st' with
  | zero =>
    have : st = st' := by simpa [runSteps] using hc
    rw [this]
  | succ n ih =>
    obtain ⟨s1, h1, h2⟩ := runSteps_succ_ok.mp hc
    rw [(usl_sdfs hf h2).1 d, hd, ← ih h1]
    rfl

/-- **C118**, box, any kernel, any number of steps. A point that stays away from all other walls never gets more than one step's
travel `r` beyond the lower of its first depth and `h (1 - reach)`. -/
theorem box_wall_run {c : Coupling z} {d : Fin z.D} {o e : Fin (m + 1) → ℝ} {h : ℝ} {pad : ℕ}
    (W : WallScene sv c d o e h pad) (dp : DomainParams ℝ (m + 1)) (hd : sv.sdfs d = domainSdf dp) (n : ℕ)
    {st st' : SimState z ℝ (m + 1) (SdfState ℝ (m + 1)) LS (ForceState ℝ (m + 1))} (hdt : 0 ≤ st.dt)
    (hs : ∀ x a, sdfVelocity (st.world.sdfs d) x a = 0)
    (hc : runSteps (uslCall realFns sv) n st = .ok st') (q : Fin (z.np c.p)) (upper : Bool) (a : Fin (m + 1)) {r : ℝ}
    (ho : AlongRun realFns sv n st fun w => OthersAway dp (h + (reach c.ker : ℝ) * h) upper a ((w.bodies c.p).position q))
    (hstep : ∀ i < n, ∀ si si', runSteps (uslCall realFns sv) i st = .ok si → uslCall realFns sv si = .ok si' →
      wallDepth dp.lo dp.hi ((si.world.bodies c.p).position q) upper a - r ≤
        wallDepth dp.lo dp.hi ((si'.world.bodies c.p).position q) upper a) :
    min (wallDepth dp.lo dp.hi ((st.world.bodies c.p).position q) upper a) (h * (1 - (reach c.ker : ℝ)) - r) ≤
      wallDepth dp.lo dp.hi ((st'.world.bodies c.p).position q) upper a := by
  have := (wall_holds_run W n hdt hc (b := boxShift dp upper a) (A := boxNormal upper a) q
    (fun i hi si hsi => by
      rw [hd]
      exact box_flat dp _ (by rw [box_state W.forces hd i hsi]; exact hs) c.ker h st.dt upper a _ (ho i hi si hsi))
    (fun i hi si si' h1 h2 => by rw [box_height, box_height]; exact hstep i hi si si' h1 h2)).1
  rw [box_height, box_height, box_abs] at this
  rwa [show h * (1 - (reach c.ker : ℝ)) - r = h - (reach c.ker : ℝ) * h * 1 - r by ring]

/-- **C118**, box, linear kernel: a point away from the other walls never leaves through a wall, for any number of steps in which
no node moves more than one cell towards it. -/
theorem box_wall_tight {c : Coupling z} {d : Fin z.D} {o e : Fin (m + 1) → ℝ} {h : ℝ} {pad : ℕ}
    (W : WallScene sv c d o e h pad) (hk : c.ker = .linear) (dp : DomainParams ℝ (m + 1)) (hd : sv.sdfs d = domainSdf dp) (n : ℕ)
    {st st' : SimState z ℝ (m + 1) (SdfState ℝ (m + 1)) LS (ForceState ℝ (m + 1))} (hdt : 0 ≤ st.dt)
    (hs : ∀ x a, sdfVelocity (st.world.sdfs d) x a = 0)
    (hc : runSteps (uslCall realFns sv) n st = .ok st') (q : Fin (z.np c.p)) (upper : Bool) (a : Fin (m + 1))
    (hin : AlongRun realFns sv n st fun w => InBox o e ((w.bodies c.p).position q))
    (ho : AlongRun realFns sv n st fun w => OthersAway dp (2 * h) upper a ((w.bodies c.p).position q))
    (hv : ∀ i < n, ∀ si, runSteps (uslCall realFns sv) i st = .ok si → OneCell sv si c.g h (boxNormal upper a))
    (hl : 0 ≤ wallDepth dp.lo dp.hi ((st.world.bodies c.p).position q) upper a) :
    0 ≤ wallDepth dp.lo dp.hi ((st'.world.bodies c.p).position q) upper a := by
  have := (wall_tight_run W hk n hdt hc (b := boxShift dp upper a) (A := boxNormal upper a) q (box_abs upper a)
    (fun i hi si hsi => by
      rw [hd]
      refine box_flat dp _ (by rw [box_state W.forces hd i hsi]; exact hs) c.ker h st.dt upper a _ ?_
      have := ho i hi si hsi
      rw [hk]
      have e : h + (reach .linear : ℝ) * h = 2 * h := by simp [reach]; ring
      rwa [e])
    hin hv (by rw [box_height]; exact hl)).1
  rwa [box_height] at this

end
/-! ### A room -/

abbrev roomSz : Sz := { P := 1, G := 1, C := 1, S := 1, D := 1, np := fun _ => 2 }

noncomputable def roomBox : DomainParams ℝ 2 := { lo := fun _ => 0, hi := fun _ => 4, frictions := fun _ => 0 }

/-- A room of 4 by 4 with cells of size 1/2, gravity and the walls. -/
noncomputable def roomSolver : Solver roomSz ℝ 2 (SdfState ℝ 2) (LawState ℝ) (ForceState ℝ 2) :=
  { alpha := 99 / 100
    domains := fun _ => GridDomain.create (fun _ => 0) (fun _ => 4) (1 / 2) 2
    couplings := [{ ker := .linear, p := (0 : Fin 1), g := (0 : Fin 1), c := (0 : Fin 1), s := (0 : Fin 1), skip := false }]
    laws := fun _ => elasticLaw 1000 (1 / 4) false
    forces := [gravityForce true [] [(0 : Fin 1)] 0, sdfColliderForce realFns (some (0 : Fin 1)) [(0 : Fin 1)] 0 0]
    sdfs := fun _ => domainSdf roomBox
    sharpness := 10 }

noncomputable def roomState (y v : ℝ) : SimState roomSz ℝ 2 (SdfState ℝ 2) (LawState ℝ) (ForceState ℝ 2) :=
  { world := { bodies := fun _ => .deformable (MPState.create
                { position := ![![2, y], ![2, 1]]
                  velocity := some fun _ => ![0, v]
                  mass := some fun _ => 1
                  volume := some fun _ => 1 / 4 })
               sdfs := fun _ => SdfState.create fun _ => 0 }
    mech := { laws := fun _ => .elastic fun _ => 0, solvers := fun _ _ => 0, forces := [.gravity ![0, -10]] }
    time := 0
    step := 0
    dt := 1 / 100 }

theorem room_ok (y v : ℝ) : ∃ st', uslCall realFns roomSolver (roomState y v) = .ok st' := ⟨_, rfl⟩

theorem roomScene : WallScene roomSolver { ker := .linear, p := (0 : Fin 1), g := (0 : Fin 1), c := (0 : Fin 1), s := (0 : Fin 1), skip := false }
    (0 : Fin 1) (fun _ => 0) (fun _ => 4) (1 / 2) 2 where
  laws _ := LibLaw.onlyStress (.elastic 1000 (1 / 4) false)
  forces f hf := by
    simp only [roomSolver, List.mem_cons, List.not_mem_nil, or_false] at hf
    rcases hf with rfl | rfl
    · exact .gravity _ _ _ _
    · exact .sdfCollider _ _ _ _ _
  last := ⟨[gravityForce true [] [(0 : Fin 1)] 0], [(0 : Fin 1)], 0, 0, rfl, by simp, by simp⟩
  once := by simp [roomSolver]
  mem := by simp [roomSolver]
  active := rfl
  grid := rfl
  size := by norm_num
  pad := le_rfl

theorem room_still (x : Fin 2 → ℝ) (a : Fin 2) : sdfVelocity (SdfState.create (dim := 2) fun _ => (0 : ℝ)) x a = 0 := by
  fin_cases a <;> simp [sdfVelocity, spinVel, SdfState.create]

theorem room_others (y v : ℝ) (hy : y ≤ 2) :
    OthersAway roomBox 1 false 1 (((roomState y v).world.bodies (0 : Fin 1)).position (0 : Fin 2)) := by
  have e : ((roomState y v).world.bodies (0 : Fin 1)).position (0 : Fin 2) = ![2, y] := rfl
  rw [e]
  intro u b hne
  fin_cases b <;> cases u <;> simp [wallDepth, roomBox] at hne ⊢ <;> linarith

/-- `box_wall_holds` on a point that lies in the floor and moves downwards. -/
example : ∃ st', uslCall realFns roomSolver (roomState (-1 / 10) (-3)) = .ok st' ∧
    -1 / 10 ≤ (st'.world.bodies (0 : Fin 1)).position (0 : Fin 2) 1 := by
  obtain ⟨st', h⟩ := room_ok (-1 / 10) (-3)
  refine ⟨st', h, ?_⟩
  have := box_wall_holds roomScene roomBox rfl (by norm_num [roomState]) room_still h (0 : Fin 2) false 1
    (by
      have := room_others (-1 / 10) (-3) (by norm_num)
      rwa [show (1 / 2 + (reach .linear : ℝ) * (1 / 2)) = 1 by norm_num [reach]])
    (by
      have e : ((roomState (-1 / 10) (-3)).world.bodies (0 : Fin 1)).position (0 : Fin 2) = ![2, -1 / 10] := rfl
      change wallDepth roomBox.lo roomBox.hi (((roomState (-1 / 10) (-3)).world.bodies (0 : Fin 1)).position (0 : Fin 2)) false 1 ≤ _
      rw [e]
      norm_num [wallDepth, roomBox, reach])
  have e : ((roomState (-1 / 10) (-3)).world.bodies (0 : Fin 1)).position (0 : Fin 2) = ![2, -1 / 10] := rfl
  change wallDepth roomBox.lo roomBox.hi (((roomState (-1 / 10) (-3)).world.bodies (0 : Fin 1)).position (0 : Fin 2)) false 1 ≤
    wallDepth roomBox.lo roomBox.hi ((st'.world.bodies (0 : Fin 1)).position (0 : Fin 2)) false 1 at this
  rw [e] at this
  simpa [wallDepth, roomBox] using this

/-- A frictionless wall of the box does not speed a node up. -/
theorem room_node (dist : ℝ) (v n : Fin 2 → ℝ) (u : Bool) (a : Fin 2) (hn : n = boxNormal (m := 1) u a) (h1 : v 1 ≤ 0) :
    v 1 ≤ collideNode Real.sqrt 0 dist v n (fun _ => 0) 0 (1 / 100) 1 := by
  rcases le_or_gt dist 0 with hd | hd
  · rw [collideNode_inside 0 dist v n _ 0 _ (by rw [hn]; cases u <;> simp [Spec.dot, boxNormal]) hd]
    have : ∀ vt dv : ℝ, 0 ≤ vt → fricFactor vt 0 dv = 1 := by
      intro vt dv h
      unfold fricFactor
      rw [zero_mul, min_eq_right h]; simp
    rw [this _ _ (Real.sqrt_nonneg _)]
    simp only [Spec.tang, sub_zero, mul_one, zero_add]
    have : ∀ x y : ℝ, (x + max 0 (-x)) * y + (v 1 - x * y) = v 1 + max 0 (-x) * y := fun x y => by ring
    rw [this]
    rw [hn]
    fin_cases a <;> cases u <;> simp [Spec.dot, boxNormal, h1]
  · rw [collideNode_outside 0 dist v n _ 0 _ hd]

theorem room_momentum {w : ℕ} (c : InteractionCache ℝ 2 w) (s : MPState ℝ 2 2) (g0 : GridArrays ℝ 2) (j : ℕ)
    (h0 : g0.moment j 1 = 0) (h1 : g0.mass j = 0) (hv : ∀ q, s.velocity q 1 = 0) (hs : ∀ q, s.stress q = 0)
    (hf : ∀ q, s.force q 1 = 0) :
    (integrateBody (1 / 100) (gravityGrid ![0, -10] (p2gBody c s g0))).momentNt j 1 =
      (integrateBody (1 / 100) (gravityGrid ![0, -10] (p2gBody c s g0))).mass j * (-1 / 10) := by
  simp only [integrateBody, gravityGrid, p2gBody, hv, hf, hs, h0, h1]
  have : ∀ v a, internTerm 2 (0 : Mat3 ℝ) v a = 0 := by intro v a; simp [internTerm, trunc3]
  simp only [this, scatterAdd]
  simp
  ring

theorem room_oneCell (y : ℝ) : OneCell roomSolver (roomState y 0) (0 : Fin 1) (1 / 2) (boxNormal (m := 1) false 1) := by
  intro gr hgr j
  have hX := (Except.ok.inj hgr).symm
  have key : ∃ geo g, gr (0 : Fin 1) = collideGrid Real.sqrt 0 0 (1 / 100) geo g ∧ 
      (∀ j, ∃ u a, geo.normals j = boxNormal (m := 1) u a) ∧ (∀ j, geo.wallVels j = fun _ => 0) ∧
      ∀ j, g.momentNt j 1 = g.mass j * (-1 / 10) := by
    rw [hX]
    refine ⟨_, _, rfl, ?_, ?_, ?_⟩
    · intro j
      obtain ⟨u, a, -, -, e, -⟩ := (domain_walls roomBox).2.2 ((roomSolver.domains (0 : Fin 1)).positionStack j)
      exact ⟨u, a, funext e⟩
    · intro j
      funext a
      exact room_still _ a
    · intro j
      refine room_momentum (w := windowSize .linear 2) _ _ _ j rfl rfl ?_ ?_ ?_
      · intro q; fin_cases q <;> rfl
      · intro q; rfl
      · intro q; rfl
  obtain ⟨geo, g, e, h1, h2, h3⟩ := key
  rw [e]
  have hm : (collideGrid Real.sqrt 0 0 (1 / 100) geo g).mass j = g.mass j := rfl
  by_cases hc : g.mass j > uslCutoff
  · have hv := collideGrid_velocity 0 0 (1 / 100) geo g j (lt_trans (by norm_num [uslCutoff]) hc)
    have hg0 : 0 < g.mass j := lt_trans (by norm_num [uslCutoff]) hc
    have hv0 : Spec.nodeVelocity g j 1 = -1 / 10 := by
      unfold Spec.nodeVelocity
      rw [h3, mul_div_cancel_left₀ _ hg0.ne']
    obtain ⟨u, a, hn⟩ := h1 j
    have := room_node (geo.dists j) (Spec.nodeVelocity g j) (geo.normals j) u a hn (by rw [hv0]; norm_num)
    rw [h2, zero_mul] at hv
    rw [← hv, hv0] at this
    simp only [Fin.sum_univ_two, boxNormal, nodeVel, hm, if_pos hc]
    unfold Spec.nodeVelocity at this
    rw [hm] at this
    norm_num
    change _ ≤ 1 / 100 * _
    linarith
  · simp only [nodeVel, hm, if_neg hc]
    norm_num

/-- `box_wall_tight` on a point on the floor under gravity. -/
example : ∃ st', runSteps (uslCall realFns roomSolver) 1 (roomState (1 / 10) 0) = .ok st' ∧
    0 ≤ (st'.world.bodies (0 : Fin 1)).position (0 : Fin 2) 1 := by
  obtain ⟨st', h⟩ := room_ok (1 / 10) 0
  have hr : runSteps (uslCall realFns roomSolver) 1 (roomState (1 / 10) 0) = .ok st' := runSteps_succ_ok.mpr ⟨_, rfl, h⟩
  refine ⟨st', hr, ?_⟩
  have h0 : ∀ i < 1, ∀ si, runSteps (uslCall realFns roomSolver) i (roomState (1 / 10) 0) = .ok si → si = roomState (1 / 10) 0 := by
    intro i hi si hsi
    obtain rfl : i = 0 := by omega
    exact (Except.ok.inj hsi).symm
  have e : ((roomState (1 / 10) 0).world.bodies (0 : Fin 1)).position (0 : Fin 2) = ![2, 1 / 10] := rfl
  have := box_wall_tight roomScene rfl roomBox rfl 1 (by norm_num [roomState]) room_still hr (0 : Fin 2) false 1
    (fun i hi si hsi => by
      rw [h0 i hi si hsi]
      change InBox _ _ (((roomState (1 / 10) 0).world.bodies (0 : Fin 1)).position (0 : Fin 2))
      rw [e]
      intro a
      fin_cases a <;> norm_num)
    (fun i hi si hsi => by
      rw [h0 i hi si hsi]
      have := room_others (1 / 10) 0 (by norm_num)
      rwa [show (2 * (1 / 2) : ℝ) = 1 by norm_num])
    (fun i hi si hsi => by rw [h0 i hi si hsi]; exact room_oneCell (1 / 10))
    (by
      change 0 ≤ wallDepth roomBox.lo roomBox.hi (((roomState (1 / 10) 0).world.bodies (0 : Fin 1)).position (0 : Fin 2)) false 1
      rw [e]
      norm_num [wallDepth, roomBox])
  change 0 ≤ wallDepth roomBox.lo roomBox.hi ((st'.world.bodies (0 : Fin 1)).position (0 : Fin 2)) false 1 at this
  simpa [wallDepth, roomBox] using this

/-! ### Where walls leak -/

/-- The room over the rationals with corner `lo`: cells of size 1/2, no other force. -/
def leakSolver (ker : Kernel) (lo : Fin 2 → ℚ) : Solver roomSz ℚ 2 (SdfState ℚ 2) (LawState ℚ) (ForceState ℚ 2) :=
  { alpha := 99 / 100
    domains := fun _ => GridDomain.create (fun _ => 0) (fun _ => 4) (1 / 2) 2
    couplings := [{ ker := ker, p := (0 : Fin 1), g := (0 : Fin 1), c := (0 : Fin 1), s := (0 : Fin 1), skip := false }]
    laws := fun _ => elasticLaw 1000 (1 / 4) false
    forces := [sdfColliderForce ratFns (some (0 : Fin 1)) [(0 : Fin 1)] 0 0]
    sdfs := fun _ => domainSdf { lo := lo, hi := fun _ => 4, frictions := fun _ => 0 }
    sharpness := 10 }

/-- Both points at `(x, y)`, falling at speed 1: a tenth of a length per step, a fifth of a cell. -/
def leakState (x y : ℚ) : SimState roomSz ℚ 2 (SdfState ℚ 2) (LawState ℚ) (ForceState ℚ 2) :=
  { world := { bodies := fun _ => .deformable (MPState.create
                { position := ![![x, y], ![x, y]]
                  velocity := some fun _ => ![0, -1]
                  mass := some fun _ => 1
                  volume := some fun _ => 1 / 4 })
               sdfs := fun _ => SdfState.create fun _ => 0 }
    mech := { laws := fun _ => .elastic fun _ => 0, solvers := fun _ _ => 0, forces := [.gravity fun _ => 0] }
    time := 0
    step := 0
    dt := 1 / 10 }

/-- **C118 refuted in corners.** A point inside the room at (1/100, 1/100), linear kernel, frictionless walls: after one step, in
which no node moves more than a fifth of a cell, it is below the floor by 2201/25000. The same point far from the side wall stays
where it is. -/
theorem corner_leak :
    probe (uslCall ratFns (leakSolver .linear fun _ => 0) (leakState (1 / 100) (1 / 100))) (0 : Fin 1)
      (fun s => s.position (0 : Fin 2) 1) = some (-2201 / 25000) ∧
    probe (uslCall ratFns (leakSolver .linear fun _ => 0) (leakState 2 (1 / 100))) (0 : Fin 1)
      (fun s => s.position (0 : Fin 2) 1) = some (1 / 100) := by
  set_option maxRecDepth 100000 in
  constructor <;> decide +kernel

/-- **C118 refuted for the wider kernels.** The same point exactly on a floor that is not a line of nodes: with the quadratic
and the cubic kernel it is below the floor after one step. With the linear kernel it stays. -/
theorem floor_leak :
    probe (uslCall ratFns (leakSolver .quadratic ![0, 7 / 20]) (leakState 2 (7 / 20))) (0 : Fin 1)
      (fun s => s.position (0 : Fin 2) 1) = some (87 / 250) ∧
    probe (uslCall ratFns (leakSolver .cubic ![0, 7 / 20]) (leakState 2 (7 / 20))) (0 : Fin 1)
      (fun s => s.position (0 : Fin 2) 1) = some (20657 / 60000) ∧
    probe (uslCall ratFns (leakSolver .linear ![0, 7 / 20]) (leakState 2 (7 / 20))) (0 : Fin 1)
      (fun s => s.position (0 : Fin 2) 1) = some (7 / 20) := by
  set_option maxRecDepth 100000 in
  refine ⟨?_, ?_, ?_⟩ <;> decide +kernel

end Hydrax
