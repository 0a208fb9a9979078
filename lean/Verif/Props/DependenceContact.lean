import Verif.Props.Dependence
import Verif.Lemmas.SceneWall
import Verif.Model.Sdf

/-!
# C149: continuous dependence in scenes with obstacles
-/

set_option linter.unusedSectionVars false

namespace Hydrax

open Spec Filter Topology

/-! ### Contact without friction -/

/-- Without friction the contact removes the part of the velocity that points into the obstacle. -/
theorem frictionless_contact {dim : ℕ} (v : Fin dim → ℝ) (dist : ℝ) (n w : Fin dim → ℝ) (dt gap : ℝ) (a : Fin dim) :
    frictionalContact Real.sqrt v dist n w 0 dt gap 0 a = v a + max 0 (-(∑ b, (v b - w b) * n b)) * n a := by
  unfold frictionalContact
  have h : ∀ m : ℝ, 0 ≤ m → (if m > 1 / 10 ^ 12 then min m 0 else 0) = 0 := fun m hm => by
    split_ifs
    · exact min_eq_right hm
    · rfl
  simp only [mul_zero, max_self, zero_mul, zero_sub, h _ (Real.sqrt_nonneg _), zero_div, sub_zero, mul_one, dotv]
  ring

section
variable {T : Type*} [TopologicalSpace T] {t0 : T} {z : Sz} {dim : ℕ} {SS : Type*}

theorem cont_collideGrid {g : T → GridArrays ℝ dim} (hg : GridCont g t0) (gap : ℝ) (dt : T → ℝ) (geo : Geom ℝ dim ℕ)
    (hm : ∀ j, (g t0).mass j ≠ 1 / 10 ^ 14) : GridCont (fun t => collideGrid Real.sqrt gap 0 (dt t) geo (g t)) t0 := by
  refine ⟨hg.mass, hg.moment, fun j a => ?_, hg.force⟩
  have hinv : ContinuousAt (fun t => if (g t).mass j > 1 / 10 ^ 14 then 1 / (g t).mass j else 0) t0 := by
    rcases lt_or_gt_of_ne (hm j) with h | h
    · refine (continuousAt_const (y := (0 : ℝ))).congr (EventuallyEq.symm ?_)
      filter_upwards [(hg.mass j).eventually (gt_mem_nhds h)] with t ht
      rw [if_neg (not_lt.2 ht.le)]
    · have h0 : (g t0).mass j ≠ 0 := ((by positivity : (0 : ℝ) < 1 / 10 ^ 14).trans h).ne'
      refine (continuousAt_const.div (hg.mass j) h0 : ContinuousAt (fun t => 1 / (g t).mass j) t0).congr (EventuallyEq.symm ?_)
      filter_upwards [(hg.mass j).eventually (lt_mem_nhds h)] with t ht
      rw [if_pos ht]
      rfl
  have hv : ∀ b, ContinuousAt (fun t => (g t).momentNt j b * if (g t).mass j > 1 / 10 ^ 14 then 1 / (g t).mass j else 0) t0 :=
    fun b => (hg.momentNt j b).mul hinv
  unfold collideGrid
  refine ContinuousAt.mul ?_ (hg.mass j)
  simp only [collideNode, zero_mul]
  by_cases hd : geo.dists j ≤ 0
  · simp only [hd, true_or, if_true, frictionless_contact]
    refine (hv a).add (ContinuousAt.mul (Tendsto.max tendsto_const_nhds (Tendsto.neg ?_)) continuousAt_const)
    exact tendsto_finsetSum _ fun b _ => ((hv b).sub continuousAt_const).mul continuousAt_const
  · simp only [hd, false_and, or_self, if_false]
    exact hv a

/-! ### Forces -/

namespace Spec

/-- The forces considered: gravity on the grid and obstacles without friction. -/
inductive ContForce : ForceHooks z ℝ dim SS (LawState ℝ) (ForceState ℝ dim) → Prop
  | gravity (gs i) : ContForce (gravityForce true [] gs i)
  | obstacle (sdf gs gap) : ContForce (sdfColliderForce realFns sdf gs gap 0)

/-- The scenes considered: kernels with continuous gradients, one coupling per body, gravity on the grid, obstacles without friction. -/
structure ContactSetup (sv : Solver z ℝ dim SS (LawState ℝ) (ForceState ℝ dim)) : Prop where
  dim23 : dim = 2 ∨ dim = 3
  size : ∀ g d, 0 < (sv.domains g).gridSize d
  kernel : ∀ c ∈ sv.couplings, c.ker ≠ .linear
  single : (sv.couplings.map (·.p)).Nodup
  forces : ∀ f ∈ sv.forces, ContForce f

/-- The obstacles and the time step are the same for all values of the parameter. Obstacles may move. -/
def SameObstacles (st : T → SimState z ℝ dim SS (LawState ℝ) (ForceState ℝ dim)) (t0 : T) : Prop :=
  ∀ t, (st t).world.sdfs = (st t0).world.sdfs ∧ (st t).dt = (st t0).dt

/-- No node carries exactly the mass below which contact takes it to be at rest. -/
def ContactClear (sv : Solver z ℝ dim SS (LawState ℝ) (ForceState ℝ dim)) (st : SimState z ℝ dim SS (LawState ℝ) (ForceState ℝ dim)) : Prop :=
  ∀ g j, massOn sv st g j ≠ 1 / 10 ^ 14

end Spec

theorem Spec.ContForce.lib {f : ForceHooks z ℝ dim SS (LawState ℝ) (ForceState ℝ dim)} (h : ContForce f) : LibForce f := by
  cases h with
  | gravity gs i => exact .gravity ..
  | obstacle sdf gs gap => exact .sdfCollider ..

theorem Spec.ContForce.kin {f : ForceHooks z ℝ dim SS (LawState ℝ) (ForceState ℝ dim)} (h : ContForce f) (w m dt time) :
    f.kinematics w m dt time = .ok (w, m) := by
  cases h <;> rfl

theorem Spec.ContForce.pre {f : ForceHooks z ℝ dim SS (LawState ℝ) (ForceState ℝ dim)} (h : ContForce f) (x dt time) :
    f.preP2g x dt time = .ok x := by
  cases h <;> rfl

theorem runHook_gravity_one (q : List (Fin z.G) × ℕ) (x : Ctx z ℝ dim SS (LawState ℝ) (ForceState ℝ dim)) (dt time : ℝ) :
    runHook ForceHooks.gridForces (gravityList [q]) x dt time = (gravityForce true [] q.1 q.2).gridForces x dt time := by
  show foldE _ x [gravityForce true [] q.1 q.2] = _
  simp only [foldE]
  cases (gravityForce true [] q.1 q.2).gridForces x dt time <;> rfl

variable {dom : Fin z.G → GridDomain ℝ dim} {cs : List (Coupling z)} {x : T → Ctx z ℝ dim SS (LawState ℝ) (ForceState ℝ dim)}

/-- The invariant of the stages on the grid. -/
structure GridStage (dom : Fin z.G → GridDomain ℝ dim) (cs : List (Coupling z)) (t0 : T) (geo : Fin z.G → Fin z.D → Geom ℝ dim ℕ)
    (m : Fin z.G → ℕ → ℝ) (y : T → Ctx z ℝ dim SS (LawState ℝ) (ForceState ℝ dim)) : Prop where
  cont : CtxCont dom cs y t0
  geoms : ∀ t, (y t).cache.nodeGeoms = geo
  mass : ∀ g, ((y t0).cache.grids g).mass = m g

variable {geo : Fin z.G → Fin z.D → Geom ℝ dim ℕ} {m : Fin z.G → ℕ → ℝ}

theorem cont_gridForces {dt time : T → ℝ} (fs : List (ForceHooks z ℝ dim SS (LawState ℝ) (ForceState ℝ dim))) (hfs : ∀ f ∈ fs, ContForce f)
    (hx : GridStage dom cs t0 geo m x) :
    FamE (GridStage dom cs t0 geo m) (fun t => runHook ForceHooks.gridForces fs (x t) (dt t) (time t)) := by
  unfold runHook
  have := FamE.foldE (R := fun (y : T → Ctx z ℝ dim SS (LawState ℝ) (ForceState ℝ dim)) (l : List (ForceHooks z ℝ dim SS (LawState ℝ) (ForceState ℝ dim))) =>
      GridStage dom cs t0 geo m y ∧ ∀ f ∈ l, ContForce f)
    (f := fun t (y : Ctx z ℝ dim SS (LawState ℝ) (ForceState ℝ dim)) (h : ForceHooks z ℝ dim SS (LawState ℝ) (ForceState ℝ dim)) =>
      h.gridForces y (dt t) (time t)) (l := fs) (fun f l y hy => by
      have hl := fun b hb => hy.2 b (List.mem_cons_of_mem _ hb)
      have hf := hy.2 f (List.mem_cons_self ..)
      have hlib := hf.lib
      cases hf with
      | gravity gs i =>
        have h1 := cont_gravity (time := time) (dt := dt) [(gs, i)] hy.1.cont
        have e : (fun t => runHook ForceHooks.gridForces (gravityList [(gs, i)]) (y t) (dt t) (time t)) =
          fun t => (gravityForce true [] gs i).gridForces (y t) (dt t) (time t) := funext fun t => runHook_gravity_one (gs, i) _ _ _
        rw [e] at h1
        rcases h1 with h1 | ⟨w, h1, h2⟩
        · exact .inl h1
        · have h1' : ∀ t, (gravityForce true [] gs i).gridForces (y t) (dt t) (time t) = .ok (w t) := h1
          refine .inr ⟨w, h1, ⟨h2, fun t => ?_, fun g => ?_⟩, hl⟩
          · rw [libForce_nodeGeoms hlib _ _ _ _ (.inl (h1' t)), hy.1.geoms]
          · rw [gravity_fold [(gs, i)] _ _ _ _ ((runHook_gravity_one (gs, i) _ _ _).trans (h1' t0)) g]
            exact hy.1.mass g
      | obstacle sdf gs gap => exact .ok ⟨hy.1, hl⟩) (x := x) ⟨hx, hfs⟩
  rcases this with h | ⟨w, h1, h2⟩
  · exact .inl h
  · exact .inr ⟨w, h1, h2.1⟩

theorem cont_gridMoments {dt time : T → ℝ} (fs : List (ForceHooks z ℝ dim SS (LawState ℝ) (ForceState ℝ dim))) (hfs : ∀ f ∈ fs, ContForce f)
    (hm : ∀ g j, m g j ≠ 1 / 10 ^ 14) (hx : GridStage dom cs t0 geo m x) :
    FamE (GridStage dom cs t0 geo m) (fun t => runHook ForceHooks.gridMoments fs (x t) (dt t) (time t)) := by
  unfold runHook
  have := FamE.foldE (R := fun (y : T → Ctx z ℝ dim SS (LawState ℝ) (ForceState ℝ dim)) (l : List (ForceHooks z ℝ dim SS (LawState ℝ) (ForceState ℝ dim))) =>
      GridStage dom cs t0 geo m y ∧ ∀ f ∈ l, ContForce f)
    (f := fun t (y : Ctx z ℝ dim SS (LawState ℝ) (ForceState ℝ dim)) (h : ForceHooks z ℝ dim SS (LawState ℝ) (ForceState ℝ dim)) =>
      h.gridMoments y (dt t) (time t)) (l := fs) (fun f l y hy => by
      have hl := fun b hb => hy.2 b (List.mem_cons_of_mem _ hb)
      have hf := hy.2 f (List.mem_cons_self ..)
      cases hf with
      | gravity gs i => exact .ok ⟨hy.1, hl⟩
      | obstacle sdf gs gap =>
        cases sdf with
        | none => exact .ok ⟨hy.1, hl⟩
        | some d =>
          refine .ok ⟨?_, hl⟩
          have h := hy.1
          clear hy
          induction gs generalizing y with
          | nil => exact h
          | cons g gs ih =>
            simp only [List.foldl_cons]
            refine ih (fun t => (y t).setGrid g (collideGrid realFns.sqrt gap 0 (dt t) ((y t).cache.nodeGeoms g d) ((y t).cache.grids g))) ?_
            refine ⟨h.cont.setGrid g ?_, h.geoms, fun k => ?_⟩
            · simp only [h.geoms]
              exact cont_collideGrid (h.cont.grids g) gap dt (geo g d) fun j => by rw [h.mass g]; exact hm g j
            · by_cases hk : k = g
              · subst hk
                simp only [Ctx.setGrid, Function.update_self, collideGrid]
                exact h.mass k
              · simp only [Ctx.setGrid, Function.update_of_ne hk]
                exact h.mass k) (x := x) ⟨hx, hfs⟩
  rcases this with h | ⟨w, h1, h2⟩
  · exact .inl h
  · exact .inr ⟨w, h1, h2.1⟩

theorem p2g_nodeGeoms (cs : List (Coupling z)) {x x' : Ctx z ℝ dim SS (LawState ℝ) (ForceState ℝ dim)} (h : foldE p2gCoupling x cs = .ok x') :
    x'.cache.nodeGeoms = x.cache.nodeGeoms := by
  refine foldE_inv (I := fun y => y.cache.nodeGeoms = x.cache.nodeGeoms) cs x x' rfl ?_ h
  intro b _ y y' hy hyy
  rw [← hy]
  unfold p2gCoupling at hyy
  split_ifs at hyy
  · rw [← Except.ok.inj hyy]
  · split at hyy
    · exact absurd hyy (by simp)
    · split at hyy
      · exact absurd hyy (by simp)
      · split_ifs at hyy
        rw [← Except.ok.inj hyy]; rfl

theorem integrate_nodeGeoms (dt : ℝ) (cs : List (Coupling z)) {x x' : Ctx z ℝ dim SS (LawState ℝ) (ForceState ℝ dim)}
    (h : foldE (integrateCoupling dt) x cs = .ok x') : x'.cache.nodeGeoms = x.cache.nodeGeoms := by
  refine foldE_inv (I := fun y => y.cache.nodeGeoms = x.cache.nodeGeoms) cs x x' rfl ?_ h
  intro b _ y y' hy hyy
  rw [← hy]
  unfold integrateCoupling at hyy
  split_ifs at hyy <;> · rw [← Except.ok.inj hyy]; try rfl

variable {sv : Solver z ℝ dim SS (LawState ℝ) (ForceState ℝ dim)}

theorem contact_kinematics (hf : ∀ f ∈ sv.forces, ContForce f) (w : World z ℝ dim SS) (m : Mech z ℝ (LawState ℝ) (ForceState ℝ dim)) (dt time : ℝ) :
    kinematicUpdate sv w m dt time = .ok ({ w with sdfs := fun i => (sv.sdfs i).updateKin (w.sdfs i) dt }, m) := by
  have : ∀ (l : List (ForceHooks z ℝ dim SS (LawState ℝ) (ForceState ℝ dim))) (_ : ∀ f ∈ l, ContForce f)
      (wm : World z ℝ dim SS × Mech z ℝ (LawState ℝ) (ForceState ℝ dim)),
      foldE (fun (wm : World z ℝ dim SS × Mech z ℝ (LawState ℝ) (ForceState ℝ dim)) f => f.kinematics wm.1 wm.2 dt time) wm l = .ok wm := by
    intro l
    induction l with
    | nil => intro _ wm; rfl
    | cons q l ih =>
      intro hl wm
      simp only [foldE, (hl q (List.mem_cons_self ..)).kin]
      exact ih (fun f hf => hl f (List.mem_cons_of_mem _ hf)) wm
  unfold kinematicUpdate
  rw [this _ hf]
  rfl

theorem contact_preP2g (fs : List (ForceHooks z ℝ dim SS (LawState ℝ) (ForceState ℝ dim))) (hf : ∀ f ∈ fs, ContForce f)
    (x : Ctx z ℝ dim SS (LawState ℝ) (ForceState ℝ dim)) (dt time : ℝ) : runHook ForceHooks.preP2g fs x dt time = .ok x := by
  unfold runHook
  induction fs with
  | nil => rfl
  | cons q l ih =>
    simp only [foldE, (hf q (List.mem_cons_self ..)).pre]
    exact ih fun f h => hf f (List.mem_cons_of_mem _ h)

/-- **C149**, one call of a scene with obstacles without friction, at rest or in prescribed motion. -/
theorem contact_call_continuous_partial (hsv : ContactSetup sv) (st : T → SimState z ℝ dim SS (LawState ℝ) (ForceState ℝ dim)) (hst : StateCont st t0)
    (hob : SameObstacles st t0) (y0 : SimState z ℝ dim SS (LawState ℝ) (ForceState ℝ dim)) (h0 : uslCall realFns sv (st t0) = .ok y0)
    (hm : MassClear sv (st t0)) (hc : ContactClear sv (st t0)) (hl : LawsClear sv y0) :
    ∃ y, (∀ t, uslCall realFns sv (st t) = .ok (y t)) ∧ y t0 = y0 ∧ StateCont y t0 ∧ SameObstacles y t0 := by
  obtain ⟨hdim, hg, hk, hn, hf⟩ := hsv
  have hkin := fun t => contact_kinematics hf (st t).world (st t).mech (st t).dt (st t).time
  set w : T → World z ℝ dim SS := fun t => resetMaterialPoints sv
    { (st t).world with sdfs := fun i => (sv.sdfs i).updateKin ((st t).world.sdfs i) (st t).dt } with hw
  set x : T → Ctx z ℝ dim SS (LawState ℝ) (ForceState ℝ dim) := fun t =>
    { world := w t, mech := (st t).mech, cache := buildCache realFns sv (w t) (st t).dt } with hxdef
  have hlist : ∀ t, HasLists sv.domains (x t) sv.couplings := fun t c hc => by
    change (buildCache realFns sv (w t) (st t).dt).interactions c.p c.g = _
    rw [buildCache_interactions]
    exact computeConnectivity_self sv (w t) hn c hc
  have hb : ∀ p, BodyCont (fun t => (w t).bodies p) t0 := fun p => cont_reset _ hst.bodies p
  have hx : CtxCont sv.domains sv.couplings x t0 := by
    refine ⟨hb, hst.laws, hst.forces, fun g => ⟨fun _ => continuousAt_const, fun _ _ => continuousAt_const, fun _ _ => continuousAt_const,
      fun _ _ => continuousAt_const⟩, fun c hc => ⟨fun t => ((w t).bodies c.p).position, fun q a => cont_position (hb c.p) q a, fun t => ?_⟩⟩
    exact hlist t c hc
  have hgeo : ∀ t, (x t).cache.nodeGeoms = (x t0).cache.nodeGeoms := fun t => by
    simp only [hxdef, hw, buildCache, sdfGeom, resetMaterialPoints, (hob t).1, (hob t).2]
  have hcall : ∀ t, uslCall realFns sv (st t) = andThen (uslP2g sv (x t) (st t).dt (st t).time) fun x =>
      andThen (integrateGrid sv x (st t).dt (st t).time) fun x => andThen (uslG2p sv x (st t).dt (st t).time) fun x =>
      andThen (constitutiveUpdate realFns sv x (st t).dt (st t).time) fun x =>
        .ok { st t with world := x.world, mech := x.mech, step := (st t).step + 1, time := (st t).time + (st t).dt } := by
    intro t
    unfold uslCall callWith
    rw [hkin t]
    rfl
  have key : FamE (fun y : T → SimState z ℝ dim SS (LawState ℝ) (ForceState ℝ dim) => StateCont y t0) (fun t => uslCall realFns sv (st t)) := by
    rw [hcall t0] at h0
    simp only [hcall]
    have e1 : ∀ t, uslP2g sv (x t) (st t).dt (st t).time = foldE p2gCoupling (x t) sv.couplings := fun t => by
      unfold uslP2g
      rw [contact_preP2g _ hf]
      rfl
    have hm1 : ∀ x1, uslP2g sv (x t0) (st t0).dt (st t0).time = .ok x1 → ∀ g j, (x1.cache.grids g).mass j = massOn sv (st t0) g j := by
      intro x1 h1 g j
      rw [e1] at h1
      rw [(p2g_fold_sums sv.domains sv.couplings (x t0) x1 (hlist t0) h1 g j).1]
      have : ((x t0).cache.grids g).mass j = 0 := rfl
      rw [this, zero_add]
      unfold massOn
      congr 1
      funext c
      change ((resetMaterialPoints sv _).bodies c.p).nodeMass _ _ j = _
      rw [(reset_nodeMass sv _ c.p c.ker (sv.domains c.g)).1]
    refine FamE.andThen (R := GridStage sv.domains sv.couplings t0 (x t0).cache.nodeGeoms (massOn sv (st t0))) ?_ ?_
    · have h1 := cont_p2g_fold hdim hg hk hx
      simp only [e1] at hm1 ⊢
      rcases h1 with h1 | ⟨v, h1, h2⟩
      · exact .inl h1
      · exact .inr ⟨v, h1, h2, fun t => (p2g_nodeGeoms _ (h1 t)).trans (hgeo t), fun g => funext fun j => hm1 _ (h1 t0) g j⟩
    intro x1 hx1 hc1
    rw [hx1 t0] at h0
    refine FamE.andThen (R := GridStage sv.domains sv.couplings t0 (x t0).cache.nodeGeoms (massOn sv (st t0))) ?_ ?_
    · unfold integrateGrid
      refine FamE.andThen (cont_gridForces (dt := fun t => (st t).dt) (time := fun t => (st t).time) _ hf hc1) fun y hy hcy => ?_
      refine FamE.andThen (R := GridStage sv.domains sv.couplings t0 (x t0).cache.nodeGeoms (massOn sv (st t0))) ?_ fun v hv hcv =>
        cont_gridMoments (dt := fun t => (st t).dt) (time := fun t => (st t).time) _ hf hc hcv
      rcases cont_integrate_fold hst.dt sv.couplings hcy.cont with h | ⟨v, hv, hcv⟩
      · exact .inl h
      · exact .inr ⟨v, hv, hcv, fun t => (integrate_nodeGeoms _ _ (hv t)).trans (hcy.geoms t), fun g => by
          rw [(integrate_fold _ _ _ _ (hv t0) g).1, hcy.mass g]⟩
    intro x2 hx2 hc2
    simp only [andThen] at h0
    rw [hx2 t0] at h0
    refine FamE.andThen (R := fun y => CtxCont sv.domains sv.couplings y t0) ?_ ?_
    · refine cont_g2p_fold hdim hg sv.alpha hst.dt hk (fun g j => ?_) hc2.cont
      rw [hc2.mass g]; exact hm g j
    intro x3 hx3 hc3
    simp only at h0
    rw [hx3 t0] at h0
    simp only at h0
    refine FamE.andThen (R := fun y => CtxCont sv.domains sv.couplings y t0) ?_ ?_
    · obtain ⟨x4, h4, h5⟩ := andThen_ok.mp (show andThen (constitutiveUpdate realFns sv (x3 t0) (st t0).dt (st t0).time) _ = .ok y0 from h0)
      have hy := Except.ok.inj h5
      refine cont_law_fold sv.laws hst.dt hn (fun c hc hs s hs3 => ?_) hc3
      have hkeep := law_fold_keeps sv.laws _ h4 (fun c hc hs => by
        obtain ⟨s, -, h⟩ := hl c hc hs
        exact ⟨_, s, _, h⟩)
      obtain ⟨s', hb', hcl⟩ := hl c hc hs
      rw [← hy] at hb' hcl
      have hrel := hkeep.2 c.p
      have hb'' : x4.world.bodies c.p = .deformable s' := hb'
      rw [hs3, hb''] at hrel
      have hcl' : LawClear (sv.laws c.c) s' (x4.mech.laws c.c) := hcl
      exact (hcl'.of_kind (hkeep.1 c.c)).of_same hrel.1 hrel.2
    intro x4 _ hc4
    exact .ok ⟨hc4.bodies, hc4.laws, hc4.forces, hst.time.add hst.dt, hst.dt⟩
  obtain ⟨y, h1, h2, h3⟩ := key.of_ok h0
  refine ⟨y, h1, h2, h3, fun t => ⟨funext fun d => ?_, ?_⟩⟩
  · rw [(usl_sdfs (fun f h => (hf f h).lib) (h1 t)).1, (usl_sdfs (fun f h => (hf f h).lib) (h1 t0)).1, (hob t).1, (hob t).2]
  · rw [(usl_sdfs (fun f h => (hf f h).lib) (h1 t)).2, (usl_sdfs (fun f h => (hf f h).lib) (h1 t0)).2, (hob t).2]

/-- **C149**, any number of calls of a scene with obstacles without friction. -/
theorem contact_run_continuous_partial (hsv : ContactSetup sv) (k : ℕ) (st : T → SimState z ℝ dim SS (LawState ℝ) (ForceState ℝ dim))
    (hst : StateCont st t0) (hob : SameObstacles st t0)
    (y0 : SimState z ℝ dim SS (LawState ℝ) (ForceState ℝ dim)) (h0 : runSteps (uslCall realFns sv) k (st t0) = .ok y0)
    (hm : ∀ i < k, ∀ y, runSteps (uslCall realFns sv) i (st t0) = .ok y → MassClear sv y ∧ ContactClear sv y)
    (hl : ∀ i < k, ∀ y, runSteps (uslCall realFns sv) (i + 1) (st t0) = .ok y → LawsClear sv y) :
    ∃ y, (∀ t, runSteps (uslCall realFns sv) k (st t) = .ok (y t)) ∧ y t0 = y0 ∧ StateCont y t0 ∧ SameObstacles y t0 := by
  induction k generalizing y0 with
  | zero => exact ⟨st, fun _ => rfl, Except.ok.inj h0, hst, hob⟩
  | succ k ih =>
    obtain ⟨y1, h1, h2⟩ := andThen_ok.mp (show andThen (runSteps (uslCall realFns sv) k (st t0)) (uslCall realFns sv) = .ok y0 from h0)
    obtain ⟨y, hy, hyt, hc, ho⟩ := ih y1 h1 (fun i hi => hm i (by omega)) (fun i hi => hl i (by omega))
    obtain ⟨hm1, hm2⟩ := hm k (by omega) y1 h1
    obtain ⟨w, hw, hwt, hc'⟩ := contact_call_continuous_partial hsv y hc ho y0 (by rw [hyt]; exact h2) (by rw [hyt]; exact hm1) (by rw [hyt]; exact hm2)
      (hl k (by omega) y0 h0)
    refine ⟨w, fun t => ?_, hwt, hc'⟩
    simp only [runSteps, hy t, andThen]
    exact hw t

end

/-! ### With friction -/

/-- With any friction contact is not continuous, not even where a node stays in contact: at the tangential speed `1e-12` friction
sets in with a jump. -/
theorem friction_jumps (mu : ℝ) (hmu : 0 < mu) :
    ¬ ContinuousAt (fun s : ℝ => frictionalContact Real.sqrt (![s, -1] : Fin 2 → ℝ) 0 ![0, 1] 0 mu 1 0 0 0) (1 / 10 ^ 12) := by
  have e : ∀ s : ℝ, 0 < s → frictionalContact Real.sqrt (![s, -1] : Fin 2 → ℝ) 0 ![0, 1] 0 mu 1 0 0 0 =
      s * (1 - (if s > 1 / 10 ^ 12 then min s mu else 0) / (s + 1 / 10 ^ 12)) := by
    intro s hs
    have hq : Real.sqrt (s * s) = s := Real.sqrt_mul_self hs.le
    simp [frictionalContact, dotv, Fin.sum_univ_two, hq]
  intro hc
  have h0 : (0 : ℝ) < 1 / 10 ^ 12 := by norm_num
  have h1 := hc.tendsto.mono_left (nhdsWithin_le_nhds (s := Set.Ioi (1 / 10 ^ 12)))
  have h2 : Tendsto (fun s : ℝ => frictionalContact Real.sqrt (![s, -1] : Fin 2 → ℝ) 0 ![0, 1] 0 mu 1 0 0 0) (𝓝[>] (1 / 10 ^ 12))
      (𝓝 (1 / 10 ^ 12 * (1 - min (1 / 10 ^ 12) mu / (1 / 10 ^ 12 + 1 / 10 ^ 12)))) := by
    have : ContinuousAt (fun s : ℝ => s * (1 - min s mu / (s + 1 / 10 ^ 12))) (1 / 10 ^ 12) :=
      continuousAt_id.mul (continuousAt_const.sub ((Tendsto.min tendsto_id tendsto_const_nhds :
        ContinuousAt (fun s : ℝ => min s mu) (1 / 10 ^ 12)).div (continuousAt_id.add continuousAt_const) (by norm_num)))
    refine (this.tendsto.mono_left nhdsWithin_le_nhds).congr' ?_
    filter_upwards [self_mem_nhdsWithin] with s hs
    have hs' : s > 1 / 10 ^ 12 := hs
    rw [e s (h0.trans hs'), if_pos hs']
  have h3 := tendsto_nhds_unique h1 h2
  rw [e _ h0, if_neg (lt_irrefl _)] at h3
  have h4 : 0 < min (1 / 10 ^ 12) mu / (1 / 10 ^ 12 + 1 / 10 ^ 12 : ℝ) := div_pos (lt_min h0 hmu) (by positivity)
  have h5 := mul_left_cancel₀ h0.ne' h3
  linarith [h5, zero_div (1 / 10 ^ 12 + 1 / 10 ^ 12 : ℝ)]

/-! ### A scene -/

/-- Two points at `(2 + t, 2)`, thrown. -/
noncomputable def pairAt (t : ℝ) : MPState ℝ 2 2 :=
  { position := fun _ => ![2 + t, 2], velocity := fun _ => ![1, t], force := fun _ _ => 0, mass := fun _ => 1, volume := fun _ => 1, volume0 := fun _ => 1
    L := fun _ => 0, stress := fun _ => 1, F := fun _ => 1, FStore := none, volScalar := false }

noncomputable def landedSt (t : ℝ) : SimState { exSz with np := fun _ => 2, D := 1 } ℝ 2 (SdfState ℝ 2) (LawState ℝ) (ForceState ℝ 2) :=
  { world := { bodies := fun _ => .deformable (pairAt t), sdfs := fun _ => SdfState.create fun _ => 0 }
    mech := { laws := fun _ => .elastic fun _ => 0, solvers := fun _ _ => 0, forces := [.gravity ![0, -10 + t]] }
    time := 0, step := 0, dt := 1 / 100 }

/-- A floor at height zero, felt from height one. -/
noncomputable def landedSv : Solver { exSz with np := fun _ => 2, D := 1 } ℝ 2 (SdfState ℝ 2) (LawState ℝ) (ForceState ℝ 2) :=
  { alpha := 1, domains := fun _ => unitGrid, couplings := [{ ker := .quadratic, p := (0 : Fin 1), g := (0 : Fin 1), c := (0 : Fin 1), s := (0 : Fin 1), skip := false }]
    laws := fun _ => elasticLaw 1000 (1 / 4) true
    forces := [gravityForce true [] [(0 : Fin 1)] 0, sdfColliderForce realFns (some (0 : Fin 1)) [(0 : Fin 1)] 0 0]
    sdfs := fun _ => baseSdf realFns (fun _ _ => ![0, 1]) (planeDist ![0, 1]) fun _ => 1 / 2, sharpness := 10 }

theorem landed_setup : ContactSetup landedSv where
  dim23 := .inl rfl
  size g d := by fin_cases d <;> simp [landedSv, unitGrid]
  kernel c hc := by
    rw [List.mem_singleton.1 (show c ∈ [_] from hc)]; simp
  single := by simp [landedSv]
  forces f hf := by
    simp only [landedSv, List.mem_cons, List.not_mem_nil, or_false] at hf
    rcases hf with rfl | rfl
    · exact .gravity ..
    · exact .obstacle ..

theorem landed_cont : StateCont landedSt 0 where
  bodies p := by
    refine .inl ⟨pairAt, fun _ => rfl, ?_⟩
    refine ⟨fun q a => ?_, fun q a => ?_, fun _ _ => continuousAt_const, fun _ => continuousAt_const, fun _ => continuousAt_const,
      fun _ => continuousAt_const, fun _ _ _ => continuousAt_const, fun _ _ _ => continuousAt_const, fun _ _ _ => continuousAt_const, fun _ => rfl⟩
    · fin_cases a
      · exact continuousAt_const.add continuousAt_id
      · exact continuousAt_const
    · fin_cases a
      · exact continuousAt_const
      · exact continuousAt_id
  laws c := .inr (.inr (.inr fun _ => rfl))
  forces := thrown_cont.forces
  time := continuousAt_const
  dt := continuousAt_const

theorem landed_mass (g : Fin 1) (j : ℕ) : massOn landedSv (landedSt 0) g j ∈ AddSubgroup.zmultiples (1 / 64 : ℝ) := by
  have hg : ∀ d, 0 < unitGrid.gridSize d := fun d => by fin_cases d <;> simp [unitGrid]
  have h1 : massOn landedSv (landedSt 0) g j = nodeMass (compute .quadratic unitGrid (pairAt 0).position) (fun _ => 1) j := by
    have : g = 0 := Subsingleton.elim _ _
    subst this
    simp only [massOn, gridSum, landedSv, List.map_cons, List.map_nil, List.sum_cons, List.sum_nil, add_zero, true_and, if_true]
    rfl
  have h2 := scatter_nodes (.inl rfl) .quadratic unitGrid hg (pairAt 0).position (fun _ I => I.shapeVal * 1) (fun p I h _ => by rw [h, zero_mul]) j
  rw [h1]
  change scatterAdd _ _ _ ∈ _
  refine Eq.mpr (congrArg (· ∈ AddSubgroup.zmultiples (1 / 64 : ℝ)) h2) (sum_mem fun p _ => sum_mem fun k _ => ?_)
  split_ifs
  · obtain ⟨a, ha⟩ := quadratic_eighths (2 - (k 0 : ℕ))
    obtain ⟨b, hb⟩ := quadratic_eighths (2 - (k 1 : ℕ))
    refine AddSubgroup.mem_zmultiples_iff.2 ⟨a * b, ?_⟩
    have e0 : (nodeInter .quadratic unitGrid ((pairAt 0).position p) fun d => (k d : ℕ)).shapeVal =
        quadraticBasis (2 - ((k 0 : ℕ) : ℝ)) * quadraticBasis (2 - ((k 1 : ℕ) : ℝ)) := by
      simp [nodeInter, basePos, unitGrid, pairAt, basis1]
    push_cast at ha hb
    rw [e0, ha, hb, zsmul_eq_mul]
    push_cast; ring
  · exact zero_mem _

theorem landed_clear : MassClear landedSv (landedSt 0) ∧ ContactClear landedSv (landedSt 0) := by
  constructor <;> intro g j h <;> obtain ⟨k, hk⟩ := AddSubgroup.mem_zmultiples_iff.1 (h ▸ landed_mass g j) <;> rw [zsmul_eq_mul] at hk
  · have : (k : ℝ) * 10 ^ 12 = 64 := by field_simp at hk; linarith
    have : k * 10 ^ 12 = 64 := by exact_mod_cast this
    omega
  · have : (k : ℝ) * 10 ^ 14 = 64 := by field_simp at hk; linarith
    have : k * 10 ^ 14 = 64 := by exact_mod_cast this
    omega

theorem landed_ok : ∃ y, uslCall realFns landedSv (landedSt 0) = .ok y := ⟨_, rfl⟩

example : ∃ y : ℝ → SimState { exSz with np := fun _ => 2, D := 1 } ℝ 2 (SdfState ℝ 2) (LawState ℝ) (ForceState ℝ 2),
    (∀ t, runSteps (uslCall realFns landedSv) 1 (landedSt t) = .ok (y t)) ∧ StateCont y 0 := by
  obtain ⟨y0, h0⟩ := landed_ok
  obtain ⟨y, h1, -, h2, -⟩ := contact_run_continuous_partial landed_setup 1 landedSt landed_cont (fun _ => ⟨rfl, rfl⟩) y0 h0
    (fun i hi y hy => by
      have : i = 0 := by omega
      subst this
      rw [← Except.ok.inj hy]; exact landed_clear)
    (fun i hi y hy c hc hs => by
      have hc' := List.mem_singleton.1 (show c ∈ [_] from hc)
      subst hc'
      have : i = 0 := by omega
      subst this
      have : y = y0 := by
        have h0' : runSteps (uslCall realFns landedSv) (0 + 1) (landedSt 0) = .ok y0 := h0
        rw [h0'] at hy; exact (Except.ok.inj hy).symm
      subst this
      have hr : ∃ s, y.world.bodies 0 = .deformable s := by
        obtain ⟨s, hs⟩ : ∃ s, (Except.ok y : Except PyErr _) = .ok s ∧ ∃ b, s.world.bodies 0 = .deformable b := by
          rw [← h0]; exact ⟨_, rfl, _, rfl⟩
        rw [Except.ok.inj hs.1]; exact hs.2
      obtain ⟨s, hs⟩ := hr
      exact ⟨s, hs, .elastic ..⟩)
  exact ⟨y, h1, h2⟩

end Hydrax
