import Verif.Lemmas.ContCall
import Verif.Lemmas.ExampleScene
import Verif.Props.Mapping

/-!
# C149: results depend continuously on the initial state
-/

set_option linter.unusedSectionVars false

namespace Hydrax

open Spec Filter Topology

section
variable {T : Type*} [TopologicalSpace T] {t0 : T} {z : Sz} {dim : ℕ} {SS : Type*}

namespace Spec

/-- States of a simulation that depend on a parameter vary continuously at `t0`: positions, velocities, masses, volumes, stresses and
deformations of all points, reference states of the laws, gravity, time and time step. -/
structure StateCont (st : T → SimState z ℝ dim SS (LawState ℝ) (ForceState ℝ dim)) (t0 : T) : Prop where
  bodies : ∀ p, BodyCont (fun t => (st t).world.bodies p) t0
  laws : ∀ c, LawCont (fun t => (st t).mech.laws c) t0
  forces : ForcesCont (fun t => (st t).mech.forces) t0
  time : ContinuousAt (fun t => (st t).time) t0
  dt : ContinuousAt (fun t => (st t).dt) t0

/-- Mass that the points give to node `j` of grid `g`. -/
noncomputable def massOn (sv : Solver z ℝ dim SS (LawState ℝ) (ForceState ℝ dim)) (st : SimState z ℝ dim SS (LawState ℝ) (ForceState ℝ dim))
    (g : Fin z.G) (j : ℕ) : ℝ :=
  gridSum sv.couplings g fun c => (st.world.bodies c.p).nodeMass c.ker (sv.domains c.g) j

/-- No node carries exactly the mass below which its velocity is set to zero. -/
def MassClear (sv : Solver z ℝ dim SS (LawState ℝ) (ForceState ℝ dim)) (st : SimState z ℝ dim SS (LawState ℝ) (ForceState ℝ dim)) : Prop :=
  ∀ g j, massOn sv st g j ≠ 1 / 10 ^ 12

/-- No point is where the stress of its law jumps. -/
def LawsClear (sv : Solver z ℝ dim SS (LawState ℝ) (ForceState ℝ dim)) (st : SimState z ℝ dim SS (LawState ℝ) (ForceState ℝ dim)) : Prop :=
  ∀ c ∈ sv.couplings, c.skip = false → ∃ s, st.world.bodies c.p = .deformable s ∧ LawClear (sv.laws c.c) s (st.mech.laws c.c)

/-- The scenes considered: kernels with continuous gradients, one coupling per body, gravity on the grid. -/
structure SmoothSetup (sv : Solver z ℝ dim SS (LawState ℝ) (ForceState ℝ dim)) : Prop where
  dim23 : dim = 2 ∨ dim = 3
  size : ∀ g d, 0 < (sv.domains g).gridSize d
  kernel : ∀ c ∈ sv.couplings, c.ker ≠ .linear
  single : (sv.couplings.map (·.p)).Nodup
  gravity : ∃ gravs, sv.forces = gravityList gravs

end Spec

variable {sv : Solver z ℝ dim SS (LawState ℝ) (ForceState ℝ dim)}

theorem cont_position {n : ℕ} {b : T → Body ℝ dim n} (hb : BodyCont b t0) (q : Fin n) (a : Fin dim) :
    ContinuousAt (fun t => (b t).position q a) t0 := by
  rcases hb with ⟨s, h1, h2⟩ | ⟨r, h1, h2, -⟩
  · simp only [h1]; exact h2.position q a
  · simp only [h1]; exact h2 q a

theorem cont_reset (w : T → World z ℝ dim SS) (hw : ∀ p, BodyCont (fun t => (w t).bodies p) t0) (p : Fin z.P) :
    BodyCont (fun t => (resetMaterialPoints sv (w t)).bodies p) t0 := by
  simp only [resetMaterialPoints]
  split_ifs
  · rcases hw p with ⟨s, h1, h2⟩ | ⟨r, h1, h2⟩
    · refine .inl ⟨fun t => resetBody (s t), fun t => by simp only [h1], ?_⟩
      exact ⟨h2.position, h2.velocity, fun _ _ => continuousAt_const, h2.mass, h2.volume, h2.volume0, fun _ _ _ => continuousAt_const, h2.stress,
        h2.F, h2.shape⟩
    · exact .inr ⟨r, fun t => by simp only [h1], h2⟩
  · exact hw p

/-- **C149**, one call: near a state at which no node carries exactly the cutoff mass, and from which no point is moved to where its
law jumps, every call succeeds and the new state depends continuously on the old one. -/
theorem call_continuous_partial (hsv : SmoothSetup sv) (st : T → SimState z ℝ dim SS (LawState ℝ) (ForceState ℝ dim)) (hst : StateCont st t0)
    (y0 : SimState z ℝ dim SS (LawState ℝ) (ForceState ℝ dim)) (h0 : uslCall realFns sv (st t0) = .ok y0) (hm : MassClear sv (st t0))
    (hl : LawsClear sv y0) :
    ∃ y, (∀ t, uslCall realFns sv (st t) = .ok (y t)) ∧ y t0 = y0 ∧ StateCont y t0 := by
  obtain ⟨hdim, hg, hk, hn, gravs, hf⟩ := hsv
  have hkin : ∀ t, kinematicUpdate sv (st t).world (st t).mech (st t).dt (st t).time =
      .ok ({ (st t).world with sdfs := fun i => (sv.sdfs i).updateKin ((st t).world.sdfs i) (st t).dt }, (st t).mech) := by
    intro t
    have : ∀ (l : List (List (Fin z.G) × ℕ)) (wm : World z ℝ dim SS × Mech z ℝ (LawState ℝ) (ForceState ℝ dim)),
        foldE (fun (wm : World z ℝ dim SS × Mech z ℝ (LawState ℝ) (ForceState ℝ dim)) f => f.kinematics wm.1 wm.2 (st t).dt (st t).time) wm
          (gravityList l) = .ok wm := by
      intro l
      induction l with
      | nil => intro wm; rfl
      | cons q l ih => intro wm; exact ih wm
    unfold kinematicUpdate
    rw [hf, this]
    rfl
  set w : T → World z ℝ dim SS := fun t => resetMaterialPoints sv
    { (st t).world with sdfs := fun i => (sv.sdfs i).updateKin ((st t).world.sdfs i) (st t).dt } with hw
  set x : T → Ctx z ℝ dim SS (LawState ℝ) (ForceState ℝ dim) := fun t =>
    { world := w t, mech := (st t).mech, cache := buildCache realFns sv (w t) (st t).dt } with hxdef
  have hlist : ∀ t, HasLists sv.domains (x t) sv.couplings := fun t c hc => by
    change (buildCache realFns sv (w t) (st t).dt).interactions c.p c.g = _
    rw [buildCache_interactions]
    exact computeConnectivity_self sv (w t) hn c hc
  have hb : ∀ p, BodyCont (fun t => (w t).bodies p) t0 := fun p => cont_reset _ hst.bodies p
  have hx : CtxCont sv.domains sv.couplings x t0 := by
    refine ⟨hb, hst.laws, hst.forces, fun g => ⟨fun _ => continuousAt_const, fun _ _ => continuousAt_const, fun _ _ => continuousAt_const,
      fun _ _ => continuousAt_const⟩, fun c hc => ⟨fun t => ((w t).bodies c.p).position, fun q a => cont_position (hb c.p) q a, fun t => ?_⟩⟩
    exact hlist t c hc
  have hcall : ∀ t, uslCall realFns sv (st t) = andThen (uslP2g sv (x t) (st t).dt (st t).time) fun x =>
      andThen (integrateGrid sv x (st t).dt (st t).time) fun x => andThen (uslG2p sv x (st t).dt (st t).time) fun x =>
      andThen (constitutiveUpdate realFns sv x (st t).dt (st t).time) fun x =>
        .ok { st t with world := x.world, mech := x.mech, step := (st t).step + 1, time := (st t).time + (st t).dt } := by
    intro t
    unfold uslCall callWith
    rw [hkin t]
    rfl
  have key : FamE (fun y : T → SimState z ℝ dim SS (LawState ℝ) (ForceState ℝ dim) => StateCont y t0) (fun t => uslCall realFns sv (st t)) := by
    rw [hcall t0] at h0
    simp only [hcall]
    have e1 : ∀ t, uslP2g sv (x t) (st t).dt (st t).time = foldE p2gCoupling (x t) sv.couplings := fun t => by
      unfold uslP2g
      rw [hf, (gravity_idle gravs _ _ _).1]
      rfl
    have hm1 : ∀ x1, uslP2g sv (x t0) (st t0).dt (st t0).time = .ok x1 → ∀ g j, (x1.cache.grids g).mass j ≠ uslCutoff := by
      intro x1 h1 g j
      rw [e1] at h1
      rw [(p2g_fold_sums sv.domains sv.couplings (x t0) x1 (hlist t0) h1 g j).1]
      have : ((x t0).cache.grids g).mass j = 0 := rfl
      rw [this, zero_add]
      have e : gridSum sv.couplings g (fun c => ((x t0).world.bodies c.p).nodeMass c.ker (sv.domains c.g) j) = massOn sv (st t0) g j := by
        unfold massOn
        congr 1
        funext c
        change ((resetMaterialPoints sv _).bodies c.p).nodeMass _ _ j = _
        rw [(reset_nodeMass sv _ c.p c.ker (sv.domains c.g)).1]
      rw [e]
      exact hm g j
    refine FamE.andThen (R := fun y => CtxCont sv.domains sv.couplings y t0) ?_ ?_
    · simp only [e1]
      exact cont_p2g_fold hdim hg hk hx
    intro x1 hx1 hc1
    have hm1 := hm1 _ (hx1 t0)
    rw [hx1 t0] at h0
    refine FamE.andThen (R := fun y => CtxCont sv.domains sv.couplings y t0 ∧ ∀ g, ((y t0).cache.grids g).mass = ((x1 t0).cache.grids g).mass) ?_ ?_
    · unfold integrateGrid
      rw [hf]
      have f1 := cont_gravity (time := fun t => (st t).time) (dt := fun t => (st t).dt) gravs hc1
      have : FamE (fun y => CtxCont sv.domains sv.couplings y t0 ∧ ∀ g, ((y t0).cache.grids g).mass = ((x1 t0).cache.grids g).mass)
          (fun t => andThen (runHook ForceHooks.gridForces (gravityList gravs) (x1 t) (st t).dt (st t).time) fun y =>
            foldE (integrateCoupling (st t).dt) y sv.couplings) := by
        refine FamE.andThen f1 fun y hy hcy => ?_
        rcases cont_integrate_fold hst.dt sv.couplings hcy with h | ⟨v, hv, hcv⟩
        · exact .inl h
        · refine .inr ⟨v, hv, hcv, fun g => ?_⟩
          rw [(integrate_fold _ _ _ _ (hv t0) g).1, gravity_fold _ _ _ _ _ (hy t0) g]
      rcases this with ⟨e, h⟩ | ⟨v, hv, hcv⟩
      · refine .inl ⟨e, fun t => ?_⟩
        have := h t
        simp only [gravity_idle] at this ⊢
        cases hr : runHook ForceHooks.gridForces (gravityList gravs) (x1 t) (st t).dt (st t).time with
        | error e' => rw [hr] at this; simpa [andThen] using this
        | ok a =>
          rw [hr] at this
          simp only [andThen] at this ⊢
          rw [this]
      · refine .inr ⟨v, fun t => ?_, hcv⟩
        have := hv t
        simp only [gravity_idle] at this ⊢
        cases hr : runHook ForceHooks.gridForces (gravityList gravs) (x1 t) (st t).dt (st t).time with
        | error e' => rw [hr] at this; simp [andThen] at this
        | ok a =>
          rw [hr] at this
          simp only [andThen] at this ⊢
          rw [this]
    intro x2 hx2 hc2
    simp only [andThen] at h0
    rw [hx2 t0] at h0
    refine FamE.andThen (R := fun y => CtxCont sv.domains sv.couplings y t0) ?_ ?_
    · refine cont_g2p_fold hdim hg sv.alpha hst.dt hk (fun g j => ?_) hc2.1
      rw [hc2.2 g]; exact hm1 g j
    intro x3 hx3 hc3
    simp only at h0
    rw [hx3 t0] at h0
    simp only at h0
    refine FamE.andThen (R := fun y => CtxCont sv.domains sv.couplings y t0) ?_ ?_
    · obtain ⟨x4, h4, h5⟩ := andThen_ok.mp (show andThen (constitutiveUpdate realFns sv (x3 t0) (st t0).dt (st t0).time) _ = .ok y0 from h0)
      have hy := Except.ok.inj h5
      refine cont_law_fold sv.laws hst.dt hn (fun c hc hs s hs3 => ?_) hc3
      have hkeep := law_fold_keeps sv.laws _ h4 (fun c hc hs => by
        obtain ⟨s, -, h⟩ := hl c hc hs
        exact ⟨_, s, _, h⟩)
      obtain ⟨s', hb', hcl⟩ := hl c hc hs
      rw [← hy] at hb' hcl
      have hrel := hkeep.2 c.p
      have hb'' : x4.world.bodies c.p = .deformable s' := hb'
      rw [hs3, hb''] at hrel
      have hcl' : LawClear (sv.laws c.c) s' (x4.mech.laws c.c) := hcl
      exact (hcl'.of_kind (hkeep.1 c.c)).of_same hrel.1 hrel.2
    intro x4 _ hc4
    exact .ok ⟨hc4.bodies, hc4.laws, hc4.forces, hst.time.add hst.dt, hst.dt⟩
  exact key.of_ok h0

/-- **C149**, any number of calls. -/
theorem run_continuous_partial (hsv : SmoothSetup sv) (k : ℕ) (st : T → SimState z ℝ dim SS (LawState ℝ) (ForceState ℝ dim)) (hst : StateCont st t0)
    (y0 : SimState z ℝ dim SS (LawState ℝ) (ForceState ℝ dim)) (h0 : runSteps (uslCall realFns sv) k (st t0) = .ok y0)
    (hm : ∀ i < k, ∀ y, runSteps (uslCall realFns sv) i (st t0) = .ok y → MassClear sv y)
    (hl : ∀ i < k, ∀ y, runSteps (uslCall realFns sv) (i + 1) (st t0) = .ok y → LawsClear sv y) :
    ∃ y, (∀ t, runSteps (uslCall realFns sv) k (st t) = .ok (y t)) ∧ y t0 = y0 ∧ StateCont y t0 := by
  induction k generalizing y0 with
  | zero => exact ⟨st, fun _ => rfl, Except.ok.inj h0, hst⟩
  | succ k ih =>
    obtain ⟨y1, h1, h2⟩ := andThen_ok.mp (show andThen (runSteps (uslCall realFns sv) k (st t0)) (uslCall realFns sv) = .ok y0 from h0)
    obtain ⟨y, hy, hyt, hc⟩ := ih y1 h1 (fun i hi => hm i (by omega)) (fun i hi => hl i (by omega))
    obtain ⟨w, hw, hwt, hc'⟩ := call_continuous_partial hsv y hc y0 (by rw [hyt]; exact h2) (by rw [hyt]; exact hm k (by omega) y1 h1)
      (hl k (by omega) y0 h0)
    refine ⟨w, fun t => ?_, hwt, hc'⟩
    simp only [runSteps, hy t, andThen]
    exact hw t

end

/-- **C149** with a distance: for every tolerance there is a change of the parameter below which all points of all bodies end within the
tolerance of where they ended without the change. -/
theorem run_stable_partial {T : Type*} [PseudoMetricSpace T] {t0 : T} {z : Sz} {dim : ℕ} {SS : Type*}
    {sv : Solver z ℝ dim SS (LawState ℝ) (ForceState ℝ dim)} (hsv : SmoothSetup sv) (k : ℕ)
    (st : T → SimState z ℝ dim SS (LawState ℝ) (ForceState ℝ dim)) (hst : StateCont st t0)
    (y0 : SimState z ℝ dim SS (LawState ℝ) (ForceState ℝ dim)) (h0 : runSteps (uslCall realFns sv) k (st t0) = .ok y0)
    (hm : ∀ i < k, ∀ y, runSteps (uslCall realFns sv) i (st t0) = .ok y → MassClear sv y)
    (hl : ∀ i < k, ∀ y, runSteps (uslCall realFns sv) (i + 1) (st t0) = .ok y → LawsClear sv y) (ε : ℝ) (hε : 0 < ε) :
    ∃ δ > 0, ∀ t, dist t t0 < δ → ∃ y, runSteps (uslCall realFns sv) k (st t) = .ok y ∧
      ∀ p q a, |(y.world.bodies p).position q a - (y0.world.bodies p).position q a| < ε := by
  obtain ⟨y, hy, rfl, hc⟩ := run_continuous_partial hsv k st hst y0 h0 hm hl
  have h : ∀ᶠ t in 𝓝 t0, ∀ p q a, |((y t).world.bodies p).position q a - ((y t0).world.bodies p).position q a| < ε :=
    eventually_all.2 fun p => eventually_all.2 fun q => eventually_all.2 fun a =>
      (Metric.tendsto_nhds.1 (cont_position (hc.bodies p) q a) ε hε)
  obtain ⟨δ, hδ, h⟩ := Metric.eventually_nhds_iff.1 h
  exact ⟨δ, hδ, fun t ht => ⟨y t, hy t, h ht⟩⟩

/-! ### Where the dependence jumps -/

theorem jump_near {f : ℝ → ℝ} {a c : ℝ} (h : ∀ᶠ x in 𝓝[>] a, f x = c) (ha : f a ≠ c) : ¬ ContinuousAt f a := by
  intro hc
  have h1 : Tendsto f (𝓝[>] a) (𝓝 (f a)) := hc.tendsto.mono_left nhdsWithin_le_nhds
  have h2 : Tendsto f (𝓝[>] a) (𝓝 c) := (tendsto_const_nhds).congr' (h.mono fun _ hx => hx.symm)
  exact ha (tendsto_nhds_unique h1 h2)

/-- A grid of four by four nodes at distance one. -/
noncomputable def unitGrid : GridDomain ℝ 2 := { origin := fun _ => 0, stop := fun _ => 3, cellSize := 1, gridSize := ![4, 4], padding := 0, invCellSize := 1 }

/-- A point under pressure at `(2 + t, 2)`. -/
noncomputable def pointAt (t : ℝ) : MPState ℝ 2 1 :=
  { position := fun _ => ![2 + t, 2], velocity := fun _ _ => 0, force := fun _ _ => 0, mass := fun _ => 1, volume := fun _ => 1, volume0 := fun _ => 1
    L := fun _ => 0, stress := fun _ => 1, F := fun _ => 1, FStore := none, volScalar := false }

/-- Without the restriction on the kernel: with the linear kernel the force of a stressed point on node `(2, 2)` of the grid jumps when
the point passes the node. -/
theorem linear_force_jumps : ¬ ContinuousAt (fun t => (p2gBody (compute .linear unitGrid (pointAt t).position) (pointAt t) GridArrays.new).force 10 0) 0 := by
  have e : ∀ t, (p2gBody (compute .linear unitGrid (pointAt t).position) (pointAt t) GridArrays.new).force 10 0 = linearDBasis 1 t := by
    intro t
    have h := scatter_nodes (.inl rfl) .linear unitGrid (fun d => by fin_cases d <;> simp [unitGrid]) (pointAt t).position
      (fun p I => 1 * (pointAt t).volume p * internTerm 2 ((pointAt t).stress p) I.shapeGrad 0 * 1 + I.shapeVal * 1 * (pointAt t).force p 0)
      (fun p I h h' => by rw [h, h', internTerm_zero]; ring) 10
    refine (zero_add _).trans (h.trans ?_)
    have hsingle : ∀ k : GridIdx unitGrid.gridSize, ravel 2 unitGrid.gridSize (fun d => (k d : ℕ)) = 10 ↔ (k 0 : ℕ) = 2 ∧ (k 1 : ℕ) = 2 := by
      intro k
      have h0 : (k 0 : ℕ) < 4 := (k 0).isLt
      have h1 : (k 1 : ℕ) < 4 := (k 1).isLt
      have : ravel 2 unitGrid.gridSize (fun d => (k d : ℕ)) = (k 0 : ℕ) * 4 + (k 1 : ℕ) := by
        simp [ravel, unitGrid, Fin.tail]
      rw [this]; omega
    let k0 : GridIdx unitGrid.gridSize := fun d => ⟨2, by fin_cases d <;> simp [unitGrid]⟩
    rw [Fin.sum_univ_one, Finset.sum_eq_single k0]
    · rw [if_pos ((hsingle k0).2 ⟨rfl, rfl⟩)]
      have g1 : (nodeInter .linear unitGrid ((pointAt t).position 0) fun d => (k0 d : ℕ)).shapeGrad 0 = linearDBasis 1 t := by
        simp [nodeInter, pad3, tensorGrad, basePos, unitGrid, pointAt, k0, basis1, dbasis1, linearBasis]
      simp only [pointAt, internTerm, trunc3, one_mul, mul_one, mul_zero, add_zero, Fin.sum_univ_three]
      rw [← g1]
      have e1 : (1 : Mat3 ℝ) ⟨((0 : Fin 2) : ℕ), by norm_num⟩ 0 = 1 := rfl
      have e2 : (1 : Mat3 ℝ) ⟨((0 : Fin 2) : ℕ), by norm_num⟩ 1 = 0 := rfl
      have e3 : (1 : Mat3 ℝ) ⟨((0 : Fin 2) : ℕ), by norm_num⟩ 2 = 0 := rfl
      simp [pointAt, e1, e2, e3]
    · intro k _ hk
      rw [if_neg]
      intro hh
      apply hk
      obtain ⟨a, b⟩ := (hsingle k).1 hh
      funext d
      fin_cases d
      · exact Fin.ext a
      · exact Fin.ext b
    · intro hh; exact absurd (Finset.mem_univ _) hh
  simp only [e]
  refine jump_near (c := -1) ?_ ?_
  · have : ∀ᶠ x : ℝ in 𝓝[>] 0, x ∈ Set.Ioo (0 : ℝ) 1 := Ioo_mem_nhdsGT (by norm_num)
    filter_upwards [this] with x hx
    rw [linearDBasis, if_pos (by rw [abs_of_pos hx.1]; exact hx.2), sgn, if_neg (not_lt.2 hx.1.le), if_neg hx.1.ne']
    norm_num
  · norm_num [linearDBasis, sgn]

/-- At the cutoff mass: points in a grid of nodes with the momentum `u` and the same mass do not depend continuously on this mass. -/
theorem cutoff_jumps (ker : Kernel) {dim n : ℕ} (o e : Fin dim → ℝ) (h : ℝ) (hh : 0 < h) (pad : ℕ) (hpad : 2 ≤ pad) (s : MPState ℝ dim n)
    (p : Fin n) (a : Fin dim) (hx : InBox o e (s.position p)) (alpha dt u : ℝ) (hdt : dt ≠ 0) (hu : u ≠ 0) :
    ¬ ContinuousAt (fun m => (g2pBody alpha dt (compute ker (GridDomain.create o e h pad) s.position) none
      { mass := fun _ => m, moment := fun _ _ => u, momentNt := fun _ _ => u, force := fun _ _ => 0 } s).position p a) (1 / 10 ^ 12) := by
  have e1 : ∀ m, (g2pBody alpha dt (compute ker (GridDomain.create o e h pad) s.position) none
      { mass := fun _ => m, moment := fun _ _ => u, momentNt := fun _ _ => u, force := fun _ _ => 0 } s).position p a =
      s.position p a + nodeVel uslCutoff m u * dt := by
    intro m
    change s.position p a + (∑ i with _, _ * nodeVel uslCutoff m u) * dt = _
    rw [← Finset.sum_mul, (weights_partition_of_unity ker o e h hh pad hpad s.position p hx).2, one_mul]
  simp only [e1]
  intro hc
  have h1 : Tendsto (fun m => s.position p a + nodeVel uslCutoff m u * dt) (𝓝[>] (1 / 10 ^ 12)) (𝓝 (s.position p a + nodeVel uslCutoff (1 / 10 ^ 12) u * dt)) :=
    hc.tendsto.mono_left nhdsWithin_le_nhds
  have h2 : Tendsto (fun m => s.position p a + nodeVel uslCutoff m u * dt) (𝓝[>] (1 / 10 ^ 12)) (𝓝 (s.position p a + u / (1 / 10 ^ 12) * dt)) := by
    have : ContinuousAt (fun m : ℝ => s.position p a + u / m * dt) (1 / 10 ^ 12) :=
      continuousAt_const.add ((continuousAt_const.div continuousAt_id (by norm_num)).mul continuousAt_const)
    refine (this.tendsto.mono_left nhdsWithin_le_nhds).congr' ?_
    filter_upwards [self_mem_nhdsWithin] with m hm
    have hm' : m > uslCutoff := hm
    simp only [nodeVel, if_pos hm']
  have h3 := tendsto_nhds_unique h1 h2
  rw [show nodeVel uslCutoff (1 / 10 ^ 12 : ℝ) u = 0 from if_neg (lt_irrefl _)] at h3
  have : u / (1 / 10 ^ 12) * dt = 0 := by linarith
  simp [hu, hdt] at this

/-- With damping on the grid the force on a node jumps where its momentum passes zero. -/
theorem damping_jumps {dim : ℕ} (alpha f m : ℝ) (ha : alpha ≠ 0) (hf : f ≠ 0) (hm : 0 ≤ m) (j : ℕ) (a : Fin dim) :
    ¬ ContinuousAt (fun u => (dampingGrid alpha { mass := fun _ => m, moment := fun _ _ => u, momentNt := fun _ _ => 0
                                                  force := fun _ _ => f }).force j a) 0 := by
  refine jump_near (c := f - alpha * |f|) ?_ ?_
  · filter_upwards [self_mem_nhdsWithin] with u hu
    have : 0 < u / (m + 1 / 10 ^ 22) := div_pos hu (by positivity)
    simp only [dampingGrid, dampForce, sgn, if_neg (not_lt.2 this.le), if_neg this.ne']
    ring
  · simp only [dampingGrid, dampForce, sgn, zero_div, lt_irrefl, if_false, if_true, mul_zero, add_zero]
    intro h
    have : alpha * |f| = 0 := by linarith
    rcases mul_eq_zero.1 this with h | h
    · exact ha h
    · exact hf (abs_eq_zero.1 h)

example : ¬ ContinuousAt (fun u : ℝ => (dampingGrid (K := ℝ) (dim := 2) (1 / 10) { mass := fun _ => 1, moment := fun _ _ => u, momentNt := fun _ _ => 0, force := fun _ _ => 3 }).force 5 1) 0 :=
  damping_jumps _ _ _ (by norm_num) (by norm_num) (by norm_num) _ _

example : ¬ ContinuousAt (fun m => (g2pBody 1 (1 / 10) (compute .cubic (GridDomain.create (fun _ => 0) (fun _ => 10) 1 2) (pointAt 0).position) none
      { mass := fun _ => m, moment := fun _ _ => 1, momentNt := fun _ _ => 1, force := fun _ _ => 0 } (pointAt 0)).position 0 1) (1 / 10 ^ 12) :=
  cutoff_jumps .cubic _ _ 1 (by norm_num) 2 le_rfl (pointAt 0) 0 1 (fun d => by fin_cases d <;> norm_num [pointAt]) 1 _ 1 (by norm_num) (by norm_num)

/-! ### A scene meeting the conditions -/

/-- One point of mass one on a node, moved by `t` and thrown with velocity `(1, t)`. -/
noncomputable def thrownSt (t : ℝ) : SimState { exSz with np := fun _ => 1 } ℝ 2 Unit (LawState ℝ) (ForceState ℝ 2) :=
  { world := { bodies := fun _ => .deformable { pointAt t with velocity := fun _ => ![1, t] }, sdfs := Fin.elim0 }
    mech := { laws := fun _ => .elastic fun _ => 0, solvers := fun _ _ => 0, forces := [.gravity ![0, -10 + t]] }
    time := 0, step := 0, dt := 1 / 100 }

noncomputable def thrownSv : Solver { exSz with np := fun _ => 1 } ℝ 2 Unit (LawState ℝ) (ForceState ℝ 2) :=
  { alpha := 1, domains := fun _ => unitGrid, couplings := [{ ker := .quadratic, p := (0 : Fin 1), g := (0 : Fin 1), c := (0 : Fin 1), s := (0 : Fin 1), skip := false }]
    laws := fun _ => elasticLaw 1000 (1 / 4) true, forces := gravityList [([(0 : Fin 1)], 0)], sdfs := Fin.elim0, sharpness := 10 }

theorem quadratic_eighths (k : ℤ) : ∃ m : ℤ, quadraticBasis (k : ℝ) = m * (1 / 8) := by
  rcases le_or_gt k (-2) with h | h
  · have : (k : ℝ) ≤ -2 := by exact_mod_cast h
    refine ⟨0, ?_⟩
    unfold quadraticBasis
    rw [if_neg (by intro h; linarith [h.1]), if_neg (by intro h; linarith [h.1]), if_neg (by intro h; linarith [h.1])]
    simp
  rcases le_or_gt 2 k with h' | h'
  · have : (2 : ℝ) ≤ k := by exact_mod_cast h'
    refine ⟨0, ?_⟩
    unfold quadraticBasis
    rw [if_neg (by intro h; linarith [h.2]), if_neg (by intro h; linarith [h.2]), if_neg (by intro h; linarith [h.2])]
    simp
  have : k = -1 ∨ k = 0 ∨ k = 1 := by omega
  rcases this with rfl | rfl | rfl
  · exact ⟨1, by norm_num [quadraticBasis]⟩
  · exact ⟨6, by norm_num [quadraticBasis]⟩
  · exact ⟨1, by norm_num [quadraticBasis]⟩

theorem thrown_setup : SmoothSetup thrownSv where
  dim23 := .inl rfl
  size g d := by fin_cases d <;> simp [thrownSv, unitGrid]
  kernel c hc := by
    rw [List.mem_singleton.1 (show c ∈ [_] from hc)]; simp
  single := by simp [thrownSv]
  gravity := ⟨_, rfl⟩

theorem thrown_cont : StateCont thrownSt 0 where
  bodies p := by
    refine .inl ⟨fun t => { pointAt t with velocity := fun _ => ![1, t] }, fun _ => rfl, ?_⟩
    refine ⟨fun q a => ?_, fun q a => ?_, fun _ _ => continuousAt_const, fun _ => continuousAt_const, fun _ => continuousAt_const,
      fun _ => continuousAt_const, fun _ _ _ => continuousAt_const, fun _ _ _ => continuousAt_const, fun _ _ _ => continuousAt_const, fun _ => rfl⟩
    · fin_cases a
      · exact continuousAt_const.add continuousAt_id
      · exact continuousAt_const
    · fin_cases a
      · exact continuousAt_const
      · exact continuousAt_id
  laws c := .inr (.inr (.inr fun _ => rfl))
  forces k := by
    cases k with
    | zero =>
      refine .inl ⟨fun t => ![0, -10 + t], fun _ => rfl, fun a => ?_⟩
      fin_cases a
      · exact continuousAt_const
      · exact continuousAt_const.add continuousAt_id
    | succ k => exact .inr fun _ => rfl
  time := continuousAt_const
  dt := continuousAt_const

theorem thrown_mass : MassClear thrownSv (thrownSt 0) := by
  intro g j
  have hg : ∀ d, 0 < unitGrid.gridSize d := fun d => by fin_cases d <;> simp [unitGrid]
  have h1 : massOn thrownSv (thrownSt 0) g j = nodeMass (compute .quadratic unitGrid (pointAt 0).position) (fun _ => 1) j := by
    have : g = 0 := Subsingleton.elim _ _
    subst this
    simp only [massOn, gridSum, thrownSv, List.map_cons, List.map_nil, List.sum_cons, List.sum_nil, add_zero, true_and, if_true]
    rfl
  have h2 := scatter_nodes (.inl rfl) .quadratic unitGrid hg (pointAt 0).position (fun _ I => I.shapeVal * 1) (fun p I h _ => by rw [h, zero_mul]) j
  have h3 : nodeMass (compute .quadratic unitGrid (pointAt 0).position) (fun _ => (1 : ℝ)) j ∈ AddSubgroup.zmultiples (1 / 64 : ℝ) := by
    change scatterAdd _ _ _ ∈ _
    refine Eq.mpr (congrArg (· ∈ AddSubgroup.zmultiples (1 / 64 : ℝ)) h2) (sum_mem fun p _ => sum_mem fun k _ => ?_)
    split_ifs
    · obtain ⟨a, ha⟩ := quadratic_eighths (2 - (k 0 : ℕ))
      obtain ⟨b, hb⟩ := quadratic_eighths (2 - (k 1 : ℕ))
      refine AddSubgroup.mem_zmultiples_iff.2 ⟨a * b, ?_⟩
      have e0 : (nodeInter .quadratic unitGrid ((pointAt 0).position p) fun d => (k d : ℕ)).shapeVal =
          quadraticBasis (2 - ((k 0 : ℕ) : ℝ)) * quadraticBasis (2 - ((k 1 : ℕ) : ℝ)) := by
        simp [nodeInter, basePos, unitGrid, pointAt, basis1]
      push_cast at ha hb
      rw [e0, ha, hb, zsmul_eq_mul]
      push_cast; ring
    · exact zero_mem _
  rw [h1]
  intro h4
  rw [h4] at h3
  obtain ⟨k, hk⟩ := AddSubgroup.mem_zmultiples_iff.1 h3
  rw [zsmul_eq_mul] at hk
  have : (k : ℝ) * 10 ^ 12 = 64 := by field_simp at hk; linarith
  have : k * 10 ^ 12 = 64 := by exact_mod_cast this
  omega

theorem thrown_ok : ∃ y, uslCall realFns thrownSv (thrownSt 0) = .ok y := ⟨_, rfl⟩

example : ∃ y : ℝ → SimState { exSz with np := fun _ => 1 } ℝ 2 Unit (LawState ℝ) (ForceState ℝ 2),
    (∀ t, runSteps (uslCall realFns thrownSv) 1 (thrownSt t) = .ok (y t)) ∧ StateCont y 0 := by
  obtain ⟨y0, h0⟩ := thrown_ok
  obtain ⟨y, h1, -, h2⟩ := run_continuous_partial thrown_setup 1 thrownSt thrown_cont y0 h0
    (fun i hi y hy => by
      have : i = 0 := by omega
      subst this
      rw [← Except.ok.inj hy]; exact thrown_mass)
    (fun i hi y hy c hc hs => by
      have hc' := List.mem_singleton.1 (show c ∈ [_] from hc)
      subst hc'
      have : i = 0 := by omega
      subst this
      have : y = y0 := by
        have h0' : runSteps (uslCall realFns thrownSv) (0 + 1) (thrownSt 0) = .ok y0 := h0
        rw [h0'] at hy; exact (Except.ok.inj hy).symm
      subst this
      have hr : ∃ s, y.world.bodies 0 = .deformable s := by
        obtain ⟨s, hs⟩ : ∃ s, (Except.ok y : Except PyErr _) = .ok s ∧ ∃ b, s.world.bodies 0 = .deformable b := by
          rw [← h0]; exact ⟨_, rfl, _, rfl⟩
        rw [Except.ok.inj hs.1]; exact hs.2
      obtain ⟨s, hs⟩ := hr
      exact ⟨s, hs, .elastic ..⟩)
  exact ⟨y, h1, h2⟩

/-- A dense body of Drucker-Prager material meets the condition on laws. -/
example : LawClear (dpLaw realFns { bulk := 1000, shear := 600, mu1 := 1 / 2, mu2 := 0, c0 := 0, mu1Hat := 0, H := 0, rho0 := 1 / 2 } true) (pointAt 0)
    (.dp (fun _ => 0) (fun _ => 0) fun _ => 10) :=
  .dp _ (by norm_num) (by norm_num) rfl rfl _ _ _ _ _ (fun q => by norm_num [pointAt])
    (fun q => by norm_num [MPState.density, pointAt])

end Hydrax
