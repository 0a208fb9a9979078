import Verif.Props.ObstacleEnergy
import Verif.Lemmas.ExampleScene

/-!
# Damping never gives energy (C137)
-/

set_option linter.unusedSectionVars false

namespace Hydrax
open Spec

section
variable {z : Sz} {K : Type*} [Field K] [LinearOrder K] [IsStrictOrderedRing K] [FloorRing K] {dim : ℕ}
  {SS LS : Type*} {fn fn' : MathFns K} {sv : Solver z K dim SS LS (ForceState K dim)}

/-- One component of a node under a damped force, slowed down by obstacles afterwards: the force without damping still pays for the
energy, also in a step in which the velocity turns. -/
theorem damped_node {M u R a dt v l : K} (hM : 0 < M) (ha0 : 0 ≤ a) (ha1 : a ≤ 1) (hdt : 0 ≤ dt)
    (hv : M * v = M * u + dampForce a R (M * u) * dt) (hl0 : 0 ≤ l) (hl1 : l ≤ 1) :
    M * (1 / 2 * (l * v) ^ 2) ≤ M * (1 / 2 * u ^ 2) + dt * (R * (l * v)) := by
  have hs1 : 0 ≤ M * ((1 - l) * l * v ^ 2) := mul_nonneg hM.le (mul_nonneg (mul_nonneg (by linarith) hl0) (sq_nonneg v))
  have key : ∀ {u R v : K}, 0 ≤ M * ((1 - l) * l * v ^ 2) → 0 < u → M * v = M * u + (R - a * |R|) * dt →
      M * (1 / 2 * (l * v) ^ 2) ≤ M * (1 / 2 * u ^ 2) + dt * (R * (l * v)) := by
    intro u R v hs1 hu hv
    rcases le_or_gt 0 v with h | h
    · have e : dt * (R * (l * v)) = (M * v - M * u) * (l * v) + a * (dt * |R|) * (l * v) := by rw [hv]; ring
      have hR : 0 ≤ a * (dt * |R|) * (l * v) :=
        mul_nonneg (mul_nonneg ha0 (mul_nonneg hdt (abs_nonneg R))) (mul_nonneg hl0 h)
      have hsq : 0 ≤ M * (l * v - u) ^ 2 := mul_nonneg hM.le (sq_nonneg _)
      rw [e]
      nlinarith
    · have hneg : (R - a * |R|) * dt < 0 := by
        have := mul_pos hM hu
        have := mul_neg_of_pos_of_neg hM h
        linarith
      have hR0 : R < 0 := by
        by_contra hc
        push Not at hc
        rw [abs_of_nonneg hc] at hneg
        have : 0 ≤ (R - a * R) * dt := mul_nonneg (by nlinarith) hdt
        linarith
      rw [abs_of_neg hR0] at hv
      set T := dt * -R with hT
      have hT0 : 0 ≤ T := mul_nonneg hdt (by linarith)
      have hlv : 0 ≤ l * -v := mul_nonneg hl0 (by linarith)
      have h1 : M * (l * -v) ≤ 2 * T := by
        have a1 : M * (l * -v) ≤ M * -v := mul_le_mul_of_nonneg_left (mul_le_of_le_one_left (by linarith) hl1) hM.le
        have a2 : M * -v = (1 + a) * T - M * u := by rw [hT]; linarith
        have a3 := mul_pos hM hu
        have a4 : a * T ≤ T := mul_le_of_le_one_left hT0 ha1
        linarith
      have h2 := mul_le_mul_of_nonneg_right h1 hlv
      have h3 : dt * (R * (l * v)) = T * (l * -v) := by rw [hT]; ring
      have h4 := mul_nonneg hM.le (sq_nonneg u)
      rw [h3]
      nlinarith
  rcases lt_trichotomy u 0 with hu | hu | hu
  · have hs : sgn (M * u) = -1 := by
      have := mul_neg_of_pos_of_neg hM hu
      unfold sgn
      rw [if_pos this]
    have := @key (-u) (-R) (-v) (by simpa using hs1) (by linarith) (by
      simp only [dampForce, hs] at hv
      rw [abs_neg]
      linarith)
    simpa using this
  · have hs : sgn (M * u) = 0 := by rw [hu]; simp [sgn]
    simp only [dampForce, hs] at hv
    rw [hu] at hv ⊢
    have : dt * (R * (l * v)) = M * v * (l * v) := by rw [hv]; ring
    rw [this]
    have := mul_nonneg hM.le (sq_nonneg (l * v))
    nlinarith
  · have hs : sgn (M * u) = 1 := by
      have := mul_pos hM hu
      unfold sgn
      rw [if_neg (by linarith), if_neg this.ne']
    refine key hs1 hu ?_
    simp only [dampForce, hs] at hv
    linarith

/-! ### Obstacles along the axes -/

/-- The normals of the obstacle `w` point along the axes of the grid. -/
def Spec.AxisParallel (sv : Solver z K dim SS LS (ForceState K dim)) (st : SimState z K dim SS LS (ForceState K dim))
    (w : Wall z K) : Prop :=
  ∀ g ∈ w.gs, ∀ j, ∃ i, ∀ b, b ≠ i → (wallGeom sv st g w.d).normals j b = 0

/-- An obstacle at rest whose normal points along an axis slows every component down. -/
theorem axis_wall_scales (sqrt : K → K) (gap dist : K) (v n w : Fin dim → K) (mu dt : K) (hw : w = fun _ => 0)
    (hn : Spec.dot n n ≤ 1) (hmu : 0 ≤ mu) (i : Fin dim) (hi : ∀ b, b ≠ i → n b = 0) (b : Fin dim) :
    ∃ l, 0 ≤ l ∧ l ≤ 1 ∧ collideNode sqrt gap dist v n w mu dt b = l * v b := by
  subst hw
  by_cases hd : dist ≤ 0
  swap
  · refine ⟨1, zero_le_one, le_rfl, ?_⟩
    unfold collideNode
    rw [if_neg, one_mul]
    rintro (h | h)
    · exact hd h
    · exact hd h.1
  set x := Spec.dot v n with hx
  set s := Spec.dot n n with hs
  set k := max 0 (-x) with hk
  have hk0 : 0 ≤ k := le_max_left _ _
  set c := x + k * s with hc
  obtain ⟨g, g0, g1, e⟩ : ∃ g, 0 ≤ g ∧ g ≤ 1 ∧ collideNode sqrt gap dist v n (fun _ => 0) mu dt =
      fun a => g * v a + ((1 - g) * c + g * k) * n a := by
    have h1 : dotv (fun a => v a + k * n a) n = c := by
      change Spec.dot _ n = _
      rw [dot_add, dot_smul]
    let t : Fin dim → K := fun a => v a + k * n a - c * n a
    obtain ⟨f0, f1⟩ := reduction_mem (sqrt (dotv t t)) (mu * k) (mul_nonneg hmu hk0)
    refine ⟨_, f0, f1, ?_⟩
    unfold collideNode
    rw [if_pos (Or.inl hd)]
    unfold frictionalContact
    simp only [mul_zero, max_self, zero_sub, sub_zero]
    simp only [show dotv (fun a => v a) n = x from rfl, ← hk, h1]
    funext a
    change 0 + c * n a + t a * _ = _
    simp only [t]
    ring
  rw [e]
  by_cases hb : b = i
  swap
  · exact ⟨g, g0, g1, by dsimp only; rw [hi b hb]; ring⟩
  subst hb
  have hxe : x = v b * n b := by
    rw [hx, Spec.dot]
    exact Finset.sum_eq_single b (fun c _ hc => by rw [hi c hc, mul_zero]) (fun h => absurd (Finset.mem_univ b) h)
  have hse : s = n b * n b := by
    rw [hs, Spec.dot]
    exact Finset.sum_eq_single b (fun c _ hc => by rw [hi c hc, mul_zero]) (fun h => absurd (Finset.mem_univ b) h)
  have hs0 : 0 ≤ s := by rw [hse]; exact mul_self_nonneg _
  rcases le_total 0 x with h | h
  · have k0 : k = 0 := by rw [hk]; exact max_eq_left (by linarith)
    refine ⟨g + (1 - g) * s, by have := mul_nonneg (by linarith : 0 ≤ 1 - g) hs0; linarith, by
      have := mul_nonneg (by linarith : 0 ≤ 1 - g) (by linarith : 0 ≤ 1 - s); linarith, ?_⟩
    dsimp only
    rw [hc, k0, hxe, hse]
    ring
  · have k0 : k = -x := by rw [hk]; exact max_eq_right (by linarith)
    have hg1 : 0 ≤ 1 - g := by linarith
    have hs1 : 0 ≤ 1 - s := by linarith
    refine ⟨g * (1 - s) + (1 - g) * (s * (1 - s)), add_nonneg (mul_nonneg g0 hs1) (mul_nonneg hg1 (mul_nonneg hs0 hs1)), ?_, ?_⟩
    · have a1 : g * (1 - s) ≤ g := mul_le_of_le_one_right g0 (by linarith)
      have a2 : s * (1 - s) ≤ 1 := (mul_le_of_le_one_left hs1 hn).trans (by linarith)
      have a3 : (1 - g) * (s * (1 - s)) ≤ 1 - g := mul_le_of_le_one_right hg1 a2
      linarith
    · dsimp only
      rw [hc, k0, hxe, hse]
      ring

/-- Any number of such obstacles, one after the other. -/
theorem axis_walls_scale (sqrt : K → K) (geo : Fin z.D → Geom K dim ℕ) (g : Fin z.G) (walls : List (Wall z K)) (j : ℕ)
    (hrest : ∀ w ∈ walls, g ∈ w.gs → ((geo w.d).wallVels j = fun _ => 0) ∧
      (Spec.dot ((geo w.d).normals j) ((geo w.d).normals j) ≤ 1) ∧ 0 ≤ w.base * (geo w.d).friction j ∧
      ∃ i, ∀ b, b ≠ i → (geo w.d).normals j b = 0)
    (dt : K) (gr : GridArrays K dim) (hm : gr.mass j > uslCutoff) (b : Fin dim) :
    ∃ l, 0 ≤ l ∧ l ≤ 1 ∧ (wallGrid sqrt dt geo g walls gr).momentNt j b = l * gr.momentNt j b := by
  unfold wallGrid
  induction walls generalizing gr with
  | nil => exact ⟨1, zero_le_one, le_rfl, (one_mul _).symm⟩
  | cons w walls ih =>
    rw [List.foldl_cons]
    have hit : ∀ (m : ℕ) (gr : GridArrays K dim), gr.mass j > uslCutoff → (m ≠ 0 → g ∈ w.gs) →
        ((collideGrid sqrt w.gap w.base dt (geo w.d))^[m] gr).mass = gr.mass ∧ ∃ l, 0 ≤ l ∧ l ≤ 1 ∧
        ((collideGrid sqrt w.gap w.base dt (geo w.d))^[m] gr).momentNt j b = l * gr.momentNt j b := by
      intro m
      induction m with
      | zero => exact fun gr _ _ => ⟨rfl, 1, zero_le_one, le_rfl, (one_mul _).symm⟩
      | succ m ihm =>
        intro gr hm hg
        have hg := hg (by omega)
        rw [Function.iterate_succ_apply]
        obtain ⟨a1, l, l0, l1, a2⟩ := ihm (collideGrid sqrt w.gap w.base dt (geo w.d) gr) hm fun _ => hg
        obtain ⟨r1, r2, r3, i, r4⟩ := hrest w (by simp) hg
        have hm14 : gr.mass j > 1 / 10 ^ 14 := lt_trans (by norm_num [uslCutoff]) hm
        have hm0 : gr.mass j ≠ 0 := (lt_trans (by positivity) hm14).ne'
        obtain ⟨l', l0', l1', e⟩ := axis_wall_scales sqrt w.gap ((geo w.d).dists j) (fun b => gr.momentNt j b * (1 / gr.mass j))
          ((geo w.d).normals j) ((geo w.d).wallVels j) (w.base * (geo w.d).friction j) dt r1 r2 r3 i r4 b
        refine ⟨a1, l * l', mul_nonneg l0 l0', mul_le_one₀ l1 l0' l1', ?_⟩
        rw [a2]
        simp only [collideGrid, if_pos hm14]
        rw [e]
        field_simp
    obtain ⟨b1, l, l0, l1, b2⟩ := hit (w.gs.count g) gr hm fun h => List.count_pos_iff.mp (Nat.pos_of_ne_zero h)
    obtain ⟨l', l0', l1', b3⟩ := ih (fun v hv => hrest v (by simp [hv]))
      ((collideGrid sqrt w.gap w.base dt (geo w.d))^[w.gs.count g] gr) (by rw [b1]; exact hm)
    exact ⟨l' * l, mul_nonneg l0' l0, mul_le_one₀ l1' l0 l1, by rw [b3, b2]; ring⟩

/-! ### The stages of a step with damping and obstacles -/

/-- Stages of a USL call under gravity and, after it, damping and colliders. The forces of `grids` are those before damping. -/
structure DampStages (fn fn' : MathFns K) (sv : Solver z K dim SS LS (ForceState K dim)) (gravs : List (List (Fin z.G) × ℕ))
    (gs : List (Fin z.G)) (a : K) (walls : List (Wall z K)) (st st' : SimState z K dim SS LS (ForceState K dim)) (grids : Fin z.G → GridArrays K dim)
    (f : Fin z.G → ℕ → Fin dim → K) (x3 x4 : Ctx z K dim SS LS (ForceState K dim)) : Prop
    extends UslGather fn sv gravs st st' grids f x3 x4 where
  momentNt : ∀ c ∈ sv.couplings, c.skip = false → ∃ gr : GridArrays K dim, gr.mass = (grids c.g).mass ∧
    (gr.momentNt = fun j i => (grids c.g).moment j i + (if c.g ∈ gs then dampForce a ((grids c.g).force j i) ((grids c.g).moment j i)
      else (grids c.g).force j i) * st.dt) ∧
    (grids c.g).momentNt = (wallGrid fn'.sqrt st.dt (wallGeom sv st c.g) c.g walls gr).momentNt

theorem damp_stages (gravs : List (List (Fin z.G) × ℕ)) (gs : List (Fin z.G)) (hgs : gs.Nodup) (fIdx : ℕ) (walls : List (Wall z K))
    (hdim : dim = 2 ∨ dim = 3)
    (hforces : sv.forces = gravityList gravs ++ dampingForce true [] gs fIdx :: wallList fn' walls)
    {st st' : SimState z K dim SS LS (ForceState K dim)} {a : K} (ha : st.mech.forces[fIdx]? = some (.damping a))
    (h : uslCall fn sv st = .ok st') {cut : K} (hr : Regular cut sv st.world) :
    ∃ grids f x3 x4, DampStages fn fn' sv gravs gs a walls st st' grids f x3 x4 := by
  have hlib : ∀ f ∈ sv.forces, LibForce f := by
    intro f hf
    rw [hforces, List.mem_append] at hf
    exact hf.elim (gravityList_lib gravs f) (fun hf => by
      rcases List.mem_cons.mp hf with rfl | hf
      · exact .damping _ _ _ _
      · exact wallList_lib fn' walls f hf)
  obtain ⟨wm, x1, x2, x3, x4, h1, h2, h3, h4, h5, rfl⟩ := callWith_ok h
  have hk := kinematicUpdate_lib hlib _ _ _ _ _ h1
  obtain ⟨x0, h20, h21⟩ := andThen_ok.mp h2
  rw [hforces] at h20
  obtain ⟨x00, h20, h20'⟩ := foldE_append _ _ h20
  have hx00 := (gravity_pass gravs _ _ _ _).1 h20
  have hx0 : x0 = x00 := by
    obtain ⟨s1, a1, a2⟩ := foldE_cons_ok.mp h20'
    rw [(wall_pass fn' walls _ _ _ _).1 a2]
    exact (Except.ok.inj a1).symm
  subst hx00
  subst hx0
  obtain ⟨y0, h31, h3⟩ := andThen_ok.mp h3
  obtain ⟨y2, h32, h33⟩ := andThen_ok.mp h3
  rw [hforces] at h31 h33
  obtain ⟨y1, h31, h31'⟩ := foldE_append _ _ h31
  have hd1 : (dampingForce true [] gs fIdx).gridForces y1 st.dt st.time = .ok y0 := by
    obtain ⟨s1, a1, a2⟩ := foldE_cons_ok.mp h31'
    rw [(wall_pass fn' walls _ _ _ _).2 a2]
    exact a1
  obtain ⟨y20, h33, h33'⟩ := foldE_append _ _ h33
  obtain rfl : y20 = y2 := (gravity_pass gravs _ _ _ _).2 h33
  obtain ⟨y21, a1, h33'⟩ := foldE_cons_ok.mp h33'
  obtain rfl : y21 = y20 := (Except.ok.inj a1).symm
  rename' y21 => y2
  set w0 := resetMaterialPoints sv wm.1 with hw0
  have hbod : wm.1.bodies = st.world.bodies := hk.1
  have hnm := fun p => reset_nodeMass sv wm.1 p
  rw [← hw0, hbod] at hnm
  have hact : ∀ c ∈ sv.couplings, ∀ t, w0.bodies c.p = .deformable t →
      ∃ s, st.world.bodies c.p = .deformable s ∧ t = resetBody s := by
    intro c hc t ht
    have := reset_active sv wm.1 c hc t ht
    rwa [hbod] at this
  have hgood : ∀ c ∈ sv.couplings, c.skip = false → ∀ s, st.world.bodies c.p = .deformable s →
      GoodCache (compute c.ker (sv.domains c.g) s.position) (sv.domains c.g).numCells := by
    intro c hc hs s hb
    obtain ⟨o, e, hh, pad, hpos, hpad, hd, hx⟩ := hr.box c hc hs
    rw [hb] at hx
    rw [hd]
    exact goodCache_of_inBox hdim c.ker o e hh hpos pad hpad s.position hx
  have hl0 : HasLists sv.domains (⟨w0, wm.2, buildCache fn sv w0 st.dt⟩ : Ctx z K dim SS LS (ForceState K dim))
      sv.couplings := by
    intro c hc
    change (buildCache fn sv w0 st.dt).interactions c.p c.g = _
    rw [buildCache_interactions]
    exact computeConnectivity_self sv w0 hr.single c hc
  have s1 := p2g_fold_sums sv.domains sv.couplings _ x1 hl0 h21
  have o1 := p2g_fold_ok sv.domains sv.couplings _ x1 hl0 h21 (by
      intro c hc hs
      change GoodBody c.ker (sv.domains c.g) (w0.bodies c.p)
      cases hb : w0.bodies c.p with
      | rigid _ => trivial
      | deformable t =>
        obtain ⟨s, e1, rfl⟩ := hact c hc t hb
        exact ⟨hgood c hc hs s e1, hr.mass_pos c hc hs s e1⟩) (by
      intro c hc hs t ht
      obtain ⟨s, e1, rfl⟩ := hact c hc t ht
      exact fun _ _ => rfl)
    (fun g => ⟨fun _ => le_rfl, fun _ _ _ => ⟨rfl, rfl⟩, fun a => by simp [buildCache, GridArrays.new]⟩)
  have w1 := same_of_fold sv.couplings _ x1 (fun c _ x x' hx => p2gCoupling_world x x' c hx) h21
  have g1 := gravity_fold gravs x1 y1 _ _ h31
  have wy1 : y1.world = x1.world ∧ y1.mech = x1.mech ∧ y1.cache.interactions = x1.cache.interactions ∧
      y1.cache.mpGeoms = x1.cache.mpGeoms := same_of_fold (gravityList gravs) x1 y1
    (fun f hfm x x' hx => libForce_gridForces (gravityList_lib gravs f hfm) x x' _ _ hx) h31
  have hmech1 : x1.mech = st.mech := w1.2.1.trans hk.2.1
  have hmy : y1.mech.forces[fIdx]? = some (.damping a) := by rw [wy1.2.1, hmech1]; exact ha
  have hy0 : y0 = mapGrids (dampingGrid a) gs y1 := by
    simp only [dampingForce, getDamping, hmy, andThen, Bool.not_true, Bool.false_eq_true, if_false, Except.ok.injEq] at hd1
    exact hd1.symm
  have d1 : ∀ g, y0.cache.grids g = if g ∈ gs then dampingGrid a (y1.cache.grids g) else y1.cache.grids g := by
    intro g
    rw [hy0, mapGrids_grids _ _ hgs]
  have d2 := mapGrids_world (dampingGrid a) gs y1
  rw [← hy0] at d2
  have d3 : y0.cache.interactions = y1.cache.interactions :=
    (libForce_gridForces (.damping true [] gs fIdx) y1 y0 _ _ hd1).2.2.1
  have dm : ∀ g, (y0.cache.grids g).mass = (y1.cache.grids g).mass ∧ (y0.cache.grids g).moment = (y1.cache.grids g).moment := by
    intro g
    rw [d1]
    split_ifs <;> exact ⟨rfl, rfl⟩
  have df : ∀ g j, 0 ≤ (y1.cache.grids g).mass j → ∀ i, (y0.cache.grids g).force j i = if g ∈ gs then
      dampForce a ((y1.cache.grids g).force j i) ((y1.cache.grids g).moment j i) else (y1.cache.grids g).force j i := by
    intro g j hm i
    rw [d1]
    split_ifs
    · have hpos : 0 < (y1.cache.grids g).mass j + 1 / 10 ^ 22 := by positivity
      simp only [dampingGrid, dampForce, sgn_div_pos hpos]
    · rfl
  have i1 := integrate_fold st.dt sv.couplings y0 y2 h32
  have wy2 := same_of_fold sv.couplings y0 y2
    (fun c _ x x' hx => integrateCoupling_world st.dt x x' c hx) h32
  -- the obstacles
  have c1 := fun g => wall_fold fn' walls st.dt st.time y2 x2 h33' g
  have wx2 : x2.world = y2.world ∧ x2.mech = y2.mech ∧ x2.cache.interactions = y2.cache.interactions ∧
      x2.cache.mpGeoms = y2.cache.mpGeoms := same_of_fold (wallList fn' walls) y2 x2
    (fun f hfm x x' hx => libForce_gridMoments (wallList_lib fn' walls f hfm) x x' _ _ hx) h33'
  have n1 : y2.cache.nodeGeoms = wallGeom sv st := by
    have a1 : x1.cache.nodeGeoms = (buildCache fn sv w0 st.dt).nodeGeoms := by
      refine foldE_inv (I := fun y => y.cache.nodeGeoms = (buildCache fn sv w0 st.dt).nodeGeoms) sv.couplings _ x1 rfl ?_ h21
      intro b _ y y' hy hyy
      rw [← hy]
      unfold p2gCoupling at hyy
      split_ifs at hyy
      · rw [← Except.ok.inj hyy]
      · split at hyy
        · exact absurd hyy (by simp)
        · split at hyy
          · exact absurd hyy (by simp)
          · split_ifs at hyy
            rw [← Except.ok.inj hyy]; rfl
    have a2 : y1.cache.nodeGeoms = x1.cache.nodeGeoms :=
      foldE_inv (I := fun y => y.cache.nodeGeoms = x1.cache.nodeGeoms) (gravityList gravs) x1 y1 rfl
        (fun f hfm y y' hy hyy => (libForce_nodeGeoms (gravityList_lib gravs f hfm) y y' _ _ (.inl hyy)).trans hy) h31
    have a0 : y0.cache.nodeGeoms = y1.cache.nodeGeoms := libForce_nodeGeoms (.damping true [] gs fIdx) y1 y0 _ _ (.inl hd1)
    have a3 : y2.cache.nodeGeoms = y0.cache.nodeGeoms := by
      refine foldE_inv (I := fun y => y.cache.nodeGeoms = y0.cache.nodeGeoms) sv.couplings y0 y2 rfl ?_ h32
      intro b _ y y' hy hyy
      rw [← hy]
      unfold integrateCoupling at hyy
      split_ifs at hyy <;> · rw [← Except.ok.inj hyy]; try rfl
    rw [a3, a0, a2, a1]
    funext g d
    simp only [buildCache, sdfGeom, hw0, resetMaterialPoints, hk.2.2, wallGeom]
  have hwy : x2.world = w0 := by rw [wx2.1, wy2.1, d2.1, wy1.1, w1.1]
  have hl2 : HasLists sv.domains x2 sv.couplings := by
    intro c hc
    rw [wx2.2.2.1, wy2.2.2.1, d3, wy1.2.2.1, w1.2.2.1, hwy]
    exact hl0 c hc
  obtain ⟨-, gm, gb, go⟩ := g2p_fold sv.alpha st.dt sv.domains sv.couplings hr.single x2 x3 hl2 h4
  have hsame := fun g => wallGrid_same fn'.sqrt st.dt (y2.cache.nodeGeoms g) g walls (y2.cache.grids g)
  have hmass2 : ∀ g, (x2.cache.grids g).mass = (y2.cache.grids g).mass := fun g => by rw [c1 g]; exact (hsame g).1
  have hmom2 : ∀ g, (x2.cache.grids g).moment = (y2.cache.grids g).moment := fun g => by rw [c1 g]; exact (hsame g).2.1
  have hmass : ∀ g j, (x2.cache.grids g).mass j = (x1.cache.grids g).mass j := by
    intro g j; rw [hmass2, (i1 g).1, (dm g).1, g1 g]
  have hmom : ∀ g j a, (x2.cache.grids g).moment j a = (x1.cache.grids g).moment j a := by
    intro g j a; rw [hmom2, (i1 g).2.1, (dm g).2, g1 g]
  refine ⟨fun g => { x2.cache.grids g with force := (y1.cache.grids g).force }, fun g => (x1.cache.grids g).force, x3, x4, ⟨?_, ?_, ?_, ?_, ?_, ?_, ?_, ?_, ?_, ?_, ?_, h5, rfl,
    rfl, rfl⟩, ?_⟩
  · intro g j
    dsimp only
    rw [hmass, (s1 g j).1]
    simp only [hnm]
    simp [buildCache, GridArrays.new]
  · intro g j a
    dsimp only
    rw [hmom, (s1 g j).2 a]
    simp only [hnm]
    simp [buildCache, GridArrays.new]
  · intro g j a
    dsimp only
    rw [hmass, g1 g, hmech1]
  · exact fun g a => (o1 g).force_sum a
  · intro g j; dsimp only; rw [hmass]; exact (o1 g).mass_nonneg j
  · intro g j hm a
    dsimp only at hm ⊢
    rw [hmass] at hm
    rw [hmom]
    exact (o1 g).empty j hm a
  · intro hsf g j a
    refine p2g_fold_stressfree sv.domains sv.couplings _ x1 hl0 h21 ?_ (fun _ _ _ => rfl) g j a
    intro c hc hs t ht
    obtain ⟨s, e1, rfl⟩ := hact c hc t ht
    exact fun q => ⟨hsf c hc hs s e1 q, fun _ => rfl⟩
  · intro c hc hs hone s e1
    have hb0 : w0.bodies c.p = .deformable (resetBody s) := by
      rcases hb : w0.bodies c.p with t | t
      · obtain ⟨s2, e2, rfl⟩ := hact c hc t hb
        rw [e1] at e2
        cases e2
        rfl
      · obtain ⟨t2, e2, e3⟩ := gb c hc hs
        rw [hwy, hb] at e2
        cases e2
    exact p2g_fold_force sv.domains c (resetBody s) sv.couplings _ x1 hl0 h21 hs hb0 hone (.inl hc)
  · intro c hc hs
    obtain ⟨t, e1, e2⟩ := gb c hc hs
    rw [hwy] at e1
    obtain ⟨s, e3, rfl⟩ := hact c hc t e1
    exact ⟨s, e3, hgood c hc hs s e3, hr.mass_pos c hc hs s e3, e2⟩
  · intro p hp
    rw [go p hp, hwy]
    have := reset_body sv wm.1 p
    rwa [hbod] at this
  · rw [gm, wx2.2.1, wy2.2.1, d2.2.1, wy1.2.1, hmech1]
  · intro c hc hs
    refine ⟨y2.cache.grids c.g, (hmass2 c.g).symm, ?_, ?_⟩
    · dsimp only
      rw [(i1 c.g).2.2.2 ⟨c, hc, hs, rfl⟩, hmom2]
      funext j i
      have hm0 : 0 ≤ (y1.cache.grids c.g).mass j := by rw [g1 c.g]; exact (o1 c.g).mass_nonneg j
      rw [df c.g j hm0 i, (i1 c.g).2.1, (dm c.g).2]
    · rw [← n1]
      dsimp only
      rw [c1 c.g]

/-- No node gains more than the power of the forces before damping. -/
theorem damp_stages_node {gravs : List (List (Fin z.G) × ℕ)} {gs : List (Fin z.G)} {a : K} (ha0 : 0 ≤ a) (ha1 : a ≤ 1)
    {walls : List (Wall z K)} {st st' : SimState z K dim SS LS (ForceState K dim)} (hdt : 0 ≤ st.dt)
    {grids : Fin z.G → GridArrays K dim} {f : Fin z.G → ℕ → Fin dim → K} {x3 x4 : Ctx z K dim SS LS (ForceState K dim)}
    (S : DampStages fn fn' sv gravs gs a walls st st' grids f x3 x4)
    (hrest : ∀ w ∈ walls, AtRest sv st w ∧ AxisParallel sv st w) (g : Fin z.G) (j : ℕ) :
    (grids g).mass j * (1 / 2 * ∑ i, nodeVel uslCutoff ((grids g).mass j) ((grids g).momentNt j i) ^ 2) ≤
      (grids g).mass j * (1 / 2 * ∑ i, nodeVel uslCutoff ((grids g).mass j) ((grids g).moment j i) ^ 2) +
        ∑ i, st.dt * ((grids g).force j i * nodeVel uslCutoff ((grids g).mass j) ((grids g).momentNt j i)) := by
  have hcut : (0 : K) ≤ uslCutoff := by unfold uslCutoff; positivity
  by_cases hm : (grids g).mass j > uslCutoff
  swap
  · have : ∀ q, nodeVel uslCutoff ((grids g).mass j) q = 0 := fun q => by unfold nodeVel; rw [if_neg hm]
    simp [this]
  have hm0 : 0 < (grids g).mass j := lt_of_le_of_lt hcut hm
  obtain ⟨c, hc, hs, rfl⟩ : ∃ c ∈ sv.couplings, c.skip = false ∧ c.g = g :=
    gridSum_ne_zero _ _ _ (by rw [← S.mass g j]; exact hm0.ne')
  simp only [Finset.mul_sum]
  rw [← Finset.sum_add_distrib]
  refine Finset.sum_le_sum fun i _ => ?_
  have hu : (grids c.g).mass j * nodeVel uslCutoff ((grids c.g).mass j) ((grids c.g).moment j i) = (grids c.g).moment j i :=
    mul_nodeVel hm hm0
  obtain ⟨gr, g1, g2, g3⟩ := S.momentNt c hc hs
  obtain ⟨l, l0, l1, hl⟩ := axis_walls_scale fn'.sqrt (wallGeom sv st c.g) c.g walls j (fun w hw hg =>
    ⟨(hrest w hw).1.still c.g hg j, (hrest w hw).1.normal c.g hg j, (hrest w hw).1.friction c.g hg j, (hrest w hw).2 c.g hg j⟩)
    st.dt gr (by rw [g1]; exact hm) i
  have hw : nodeVel uslCutoff ((grids c.g).mass j) ((grids c.g).momentNt j i) =
      l * nodeVel uslCutoff ((grids c.g).mass j) (gr.momentNt j i) := by
    rw [g3, hl]
    simp only [nodeVel, if_pos hm]
    ring
  have hv : (grids c.g).mass j * nodeVel uslCutoff ((grids c.g).mass j) (gr.momentNt j i) = gr.momentNt j i :=
    mul_nodeVel hm hm0
  rw [hw]
  have e := congrFun (congrFun g2 j) i
  by_cases hg : c.g ∈ gs
  · refine damped_node hm0 ha0 ha1 hdt ?_ l0 l1
    rw [hv, hu, e, if_pos hg]
  · refine damped_node (a := 0) hm0 le_rfl zero_le_one hdt ?_ l0 l1
    rw [hv, hu, e, if_neg hg]
    simp [dampForce]

/-- **C137**, one step. Bodies on grids of their own under gravity and damping listed after it, and any number of obstacles at
rest along the axes: kinetic energy plus the work absorbed by the material is at most the kinetic energy before plus the work of gravity. -/
theorem damping_step_energy_partial (gravs : List (List (Fin z.G) × ℕ)) (gs : List (Fin z.G)) (hgs : gs.Nodup) (fIdx : ℕ) (walls : List (Wall z K))
    (hdim : dim = 2 ∨ dim = 3)
    (hforces : sv.forces = gravityList gravs ++ dampingForce true [] gs fIdx :: wallList fn' walls) (hL : ∀ c, (sv.laws c).OnlyStress) (h0 : 0 ≤ sv.alpha)
    (h1 : sv.alpha ≤ 1) (hown : OwnGrids sv.couplings)
    {st st' : SimState z K dim SS LS (ForceState K dim)} (h : uslCall fn sv st = .ok st') {cut : K} (hr : Regular cut sv st.world)
    {a : K} (ha : st.mech.forces[fIdx]? = some (.damping a)) (ha0 : 0 ≤ a) (ha1 : a ≤ 1) (hdt : 0 ≤ st.dt)
    (hrest : ∀ w ∈ walls, AtRest sv st w ∧ AxisParallel sv st w) :
    totalKE st'.world + activeSum sv.couplings (fun c => absorbedWork st.dt (st.world.bodies c.p) (st'.world.bodies c.p)) ≤
      totalKE st.world + activeSum sv.couplings (fun c =>
        gravityWork (gridAccel st.mech.forces gravs c.g) (st.world.bodies c.p) (st'.world.bodies c.p)) := by
  obtain ⟨grids, f, x3, x4, S⟩ := damp_stages gravs gs hgs fIdx walls hdim hforces ha h hr
  have hlaw := (law_fold hL st.dt sv.couplings x3 x4 S.law).2
  have key := gather_energy hL h0 h1 hr S.toUslGather (damp_stages_node ha0 ha1 hdt S hrest)
  have habs : ∀ c ∈ sv.couplings, c.skip = false →
      absorbedWork st.dt (st.world.bodies c.p) (st'.world.bodies c.p) = -∑ j ∈ Finset.range (sv.domains c.g).numCells, ∑ a,
        st.dt * (f c.g j a * nodeVel uslCutoff ((grids c.g).mass j) ((grids c.g).momentNt j a)) := by
    intro c hc hs
    obtain ⟨s, e1, hgc, hmp, e2⟩ := S.body c hc hs
    have hl := hlaw c.p
    rw [e2, ← S.world'] at hl
    cases hb : st'.world.bodies c.p with
    | rigid _ => rw [hb] at hl; exact hl.elim
    | deformable s' =>
      rw [hb] at hl
      obtain ⟨-, -, -, l4⟩ := hl
      rw [e1, S.internal c hc hs (fun b hb hbs e => hown b hb c hc hbs hs e) s e1]
      have := internal_power_absorbed hgc hdim sv.alpha st.dt (grids c.g) (resetBody s) rfl
      rw [this, neg_neg]
      simp only [absorbedWork]
      rw [l4]
      rfl
  rw [activeSum_congr _ _ _ habs]
  have hg := sum_grids sv.couplings (List.Nodup.of_map _ hr.single) hown (fun g =>
    ∑ j ∈ Finset.range (sv.domains g).numCells, ∑ a, st.dt * (f g j a * nodeVel uslCutoff ((grids g).mass j)
      ((grids g).momentNt j a))) (by
    intro g hg
    refine Finset.sum_eq_zero fun j _ => Finset.sum_eq_zero fun a _ => ?_
    have hm : (grids g).mass j = 0 := by rw [S.mass, gridSum_none _ _ _ hg]
    rw [(S.empty g j hm a).2]
    simp)
  have hneg := activeSum_mul sv.couplings (fun c => ∑ j ∈ Finset.range (sv.domains c.g).numCells, ∑ a, st.dt * (f c.g j a *
    nodeVel uslCutoff ((grids c.g).mass j) ((grids c.g).momentNt j a))) (-1)
  simp only [neg_one_mul] at hneg
  rw [← hneg, ← hg]
  linarith

/-- **C137**, any number of steps. -/
theorem damping_run_energy_partial (gravs : List (List (Fin z.G) × ℕ)) (gs : List (Fin z.G)) (hgs : gs.Nodup) (fIdx : ℕ) (walls : List (Wall z K))
    (hdim : dim = 2 ∨ dim = 3)
    (hforces : sv.forces = gravityList gravs ++ dampingForce true [] gs fIdx :: wallList fn' walls) (hL : ∀ c, (sv.laws c).OnlyStress) (h0 : 0 ≤ sv.alpha)
    (h1 : sv.alpha ≤ 1) (hown : OwnGrids sv.couplings) {cut : K} (n : ℕ)
    (tr : ℕ → SimState z K dim SS LS (ForceState K dim))
    (h : ∀ k < n, uslCall fn sv (tr k) = .ok (tr (k + 1))) (hr : ∀ k < n, Regular cut sv (tr k).world)
    {a : K} (ha : (tr 0).mech.forces[fIdx]? = some (.damping a)) (ha0 : 0 ≤ a) (ha1 : a ≤ 1) (hdt : 0 ≤ (tr 0).dt)
    (hrest : ∀ k < n, ∀ w ∈ walls, AtRest sv (tr k) w ∧ AxisParallel sv (tr k) w) :
    totalKE (tr n).world + ∑ k ∈ Finset.range n, activeSum sv.couplings (fun c =>
        absorbedWork (tr 0).dt ((tr k).world.bodies c.p) ((tr (k + 1)).world.bodies c.p)) ≤
      totalKE (tr 0).world + activeSum sv.couplings (fun c =>
        gravityWork (gridAccel (tr 0).mech.forces gravs c.g) ((tr 0).world.bodies c.p) ((tr n).world.bodies c.p)) := by
  suffices hall : ∀ m ≤ n, (tr m).dt = (tr 0).dt ∧ (tr m).mech.forces = (tr 0).mech.forces ∧
      (∀ c ∈ sv.couplings, c.skip = false → ∀ s, (tr m).world.bodies c.p = .deformable s → m = 0 ∨
        ∃ s0, (tr 0).world.bodies c.p = .deformable s0 ∧ s.mass = s0.mass) ∧
      totalKE (tr m).world + ∑ k ∈ Finset.range m, activeSum sv.couplings (fun c =>
        absorbedWork (tr 0).dt ((tr k).world.bodies c.p) ((tr (k + 1)).world.bodies c.p)) ≤
      totalKE (tr 0).world + activeSum sv.couplings (fun c =>
        gravityWork (gridAccel (tr 0).mech.forces gravs c.g) ((tr 0).world.bodies c.p) ((tr m).world.bodies c.p)) from
    (hall n le_rfl).2.2.2
  intro m
  induction m with
  | zero =>
    intro _
    refine ⟨rfl, rfl, fun _ _ _ _ _ => .inl rfl, ?_⟩
    simp only [gravityWork_self, Finset.range_zero, Finset.sum_empty, add_zero, le_add_iff_nonneg_right]
    refine le_of_eq ?_
    simp [activeSum]
  | succ m ih =>
    intro hm
    obtain ⟨i1, i2, i3, i4⟩ := ih (by omega)
    have hstep := damping_step_energy_partial gravs gs hgs fIdx walls hdim hforces hL h0 h1 hown (h m (by omega)) (hr m (by omega))
      (by rw [i2]; exact ha) ha0 ha1 (by rw [i1]; exact hdt) (hrest m (by omega))
    obtain ⟨grids, f, x3, x4, S⟩ := damp_stages gravs gs hgs fIdx walls hdim hforces (by rw [i2]; exact ha) (h m (by omega))
      (hr m (by omega))
    obtain ⟨hfo, hlaw⟩ := law_fold hL (tr m).dt sv.couplings x3 x4 S.law
    have hmass : ∀ c ∈ sv.couplings, c.skip = false → ∃ s s', (tr m).world.bodies c.p = .deformable s ∧
        (tr (m + 1)).world.bodies c.p = .deformable s' ∧ s'.mass = s.mass := by
      intro c hc hs
      obtain ⟨s, e1, hgc, hmp, e2⟩ := S.body c hc hs
      have hl := hlaw c.p
      rw [e2, ← S.world'] at hl
      cases hb : (tr (m + 1)).world.bodies c.p with
      | rigid _ => rw [hb] at hl; exact hl.elim
      | deformable s' =>
        rw [hb] at hl
        exact ⟨s, s', e1, rfl, hl.1⟩
    refine ⟨S.dt'.trans i1, ?_, ?_, ?_⟩
    · rw [S.mech', hfo, S.mech, i2]
    · intro c hc hs s' e'
      obtain ⟨s, s2, e1, e2, e3⟩ := hmass c hc hs
      rw [e2] at e'
      cases e'
      right
      rcases i3 c hc hs s e1 with rfl | ⟨s0, e4, e5⟩
      · exact ⟨s, e1, e3⟩
      · exact ⟨s0, e4, e3.trans e5⟩
    · rw [Finset.sum_range_succ]
      rw [i1, i2] at hstep
      have hadd : activeSum sv.couplings (fun c => gravityWork (gridAccel (tr 0).mech.forces gravs c.g) ((tr 0).world.bodies c.p)
            ((tr (m + 1)).world.bodies c.p)) =
          activeSum sv.couplings (fun c => gravityWork (gridAccel (tr 0).mech.forces gravs c.g) ((tr 0).world.bodies c.p)
            ((tr m).world.bodies c.p)) +
          activeSum sv.couplings (fun c => gravityWork (gridAccel (tr 0).mech.forces gravs c.g) ((tr m).world.bodies c.p)
            ((tr (m + 1)).world.bodies c.p)) := by
        rw [← activeSum_add]
        refine activeSum_congr _ _ _ fun c hc hs => ?_
        obtain ⟨s, s2, e1, e2, e3⟩ := hmass c hc hs
        rcases i3 c hc hs s e1 with rfl | ⟨s0, e4, e5⟩
        · rw [gravityWork_self]
          exact (zero_add _).symm
        · rw [e1, e2, e4]
          simp only [gravityWork]
          rw [← Finset.sum_add_distrib]
          refine Finset.sum_congr rfl fun p _ => ?_
          rw [e5, ← mul_add, ← Finset.sum_add_distrib]
          congr 1
          exact Finset.sum_congr rfl fun a _ => by ring
      rw [hadd]
      linarith

end
end Hydrax
