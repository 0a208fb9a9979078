import Verif.Props.EnergyBalance
import Verif.Props.Contact
import Verif.Lemmas.SceneWall

/-!
# Obstacles at rest take energy and never give any (C136)
-/

set_option linter.unusedSectionVars false

namespace Hydrax
open Spec

section
variable {z : Sz} {K : Type*} [Field K] [LinearOrder K] [IsStrictOrderedRing K] [FloorRing K] {dim : ℕ}
  {SS LS : Type*} {fn fn' : MathFns K} {sv : Solver z K dim SS LS (ForceState K dim)}

/-! ### One node -/

theorem dot_self_nonneg_gen (u : Fin dim → K) : 0 ≤ Spec.dot u u := Finset.sum_nonneg fun _ _ => mul_self_nonneg _

theorem dot_cauchy (u n : Fin dim → K) : Spec.dot u n * Spec.dot u n ≤ Spec.dot n n * Spec.dot u u := by
  have := Finset.sum_mul_sq_le_sq_mul_sq Finset.univ u n
  simp only [Spec.dot]
  calc _ = (∑ a, u a * n a) ^ 2 := by ring
    _ ≤ (∑ a, u a ^ 2) * ∑ a, n a ^ 2 := this
    _ = _ := by simp only [sq]; ring

/-- The tangential part is scaled by a number between zero and one, whatever the square root does. -/
theorem reduction_mem (t l : K) (hl : 0 ≤ l) :
    0 ≤ 1 - (if t > 1 / 10 ^ 12 then min t l else 0) / (t + 1 / 10 ^ 12) ∧
    1 - (if t > 1 / 10 ^ 12 then min t l else 0) / (t + 1 / 10 ^ 12) ≤ 1 := by
  have he : (0 : K) < 1 / 10 ^ 12 := by positivity
  split_ifs with h
  · have h1 : (0 : K) < t + 1 / 10 ^ 12 := by linarith
    have h2 : 0 ≤ min t l := le_min (by linarith) hl
    have h3 : min t l / (t + 1 / 10 ^ 12) ≤ 1 := by
      rw [div_le_one h1]; exact (min_le_left _ _).trans (by linarith)
    have h4 : 0 ≤ min t l / (t + 1 / 10 ^ 12) := div_nonneg h2 h1.le
    constructor <;> linarith
  · simp

/-- A wall at rest works against the motion: what it takes away from the velocity does not point against the velocity that
is left. -/
theorem resting_wall_work (sqrt : K → K) (gap dist : K) (v n w : Fin dim → K) (mu dt : K) (hw : w = fun _ => 0)
    (hn : Spec.dot n n ≤ 1) (hmu : 0 ≤ mu) :
    0 ≤ Spec.dot (fun a => v a - collideNode sqrt gap dist v n w mu dt a) (collideNode sqrt gap dist v n w mu dt) := by
  subst hw
  by_cases hd : dist ≤ 0
  swap
  · have : collideNode sqrt gap dist v n (fun _ => 0) mu dt = v := by
      unfold collideNode
      rw [if_neg]
      rintro (h | h)
      · exact hd h
      · exact hd h.1
    rw [this]
    simp [Spec.dot]
  set x := Spec.dot v n with hx
  set s := Spec.dot n n with hs
  set k := max 0 (-x) with hk
  have hk0 : 0 ≤ k := le_max_left _ _
  set c := x + k * s with hc
  obtain ⟨g, g0, g1, e⟩ : ∃ g, 0 ≤ g ∧ g ≤ 1 ∧ collideNode sqrt gap dist v n (fun _ => 0) mu dt =
      fun a => g * v a + ((1 - g) * c + g * k) * n a := by
    have h1 : dotv (fun a => v a + k * n a) n = c := by
      change Spec.dot _ n = _
      rw [dot_add, dot_smul]
    let t : Fin dim → K := fun a => v a + k * n a - c * n a
    obtain ⟨f0, f1⟩ := reduction_mem (sqrt (dotv t t)) (mu * k) (mul_nonneg hmu hk0)
    refine ⟨_, f0, f1, ?_⟩
    unfold collideNode
    rw [if_pos (Or.inl hd)]
    unfold frictionalContact
    simp only [mul_zero, max_self, zero_sub, sub_zero]
    simp only [show dotv (fun a => v a) n = x from rfl, ← hk, h1]
    funext a
    change 0 + c * n a + t a * _ = _
    simp only [t]
    ring
  rw [e]
  have e1 : (fun a => v a - (g * v a + ((1 - g) * c + g * k) * n a)) =
      fun a => (1 - g) * v a + (-((1 - g) * c + g * k)) * n a := by funext a; ring
  have e2 : Spec.dot (fun a => v a - (g * v a + ((1 - g) * c + g * k) * n a)) (fun a => g * v a + ((1 - g) * c + g * k) * n a) =
      (1 - g) * g * Spec.dot v v + ((1 - g) * ((1 - g) * c + g * k) - g * ((1 - g) * c + g * k)) * x -
        ((1 - g) * c + g * k) * ((1 - g) * c + g * k) * s := by
    rw [e1, dot_add, dot_smul, dot_smul, dot_comm v, dot_comm n, dot_add, dot_add, dot_smul, dot_smul, dot_smul, dot_smul,
      dot_comm n v]
    ring
  rw [e2]
  have hs0 : 0 ≤ s := dot_self_nonneg_gen n
  have hcs : x * x ≤ s * Spec.dot v v := dot_cauchy v n
  have hV := dot_self_nonneg_gen v
  set V := Spec.dot v v
  have hxV : x * x ≤ V := hcs.trans (mul_le_of_le_one_left hV hn)
  have hgg : 0 ≤ (1 - g) * g := mul_nonneg (by linarith) g0
  have hb := mul_le_mul_of_nonneg_left hxV hgg
  rcases le_total 0 x with h | h
  · have k0 : k = 0 := by rw [hk]; exact max_eq_left (by linarith)
    have hcx : c = x := by rw [hc, k0]; ring
    rw [hcx, k0]
    have : 0 ≤ x * x * (1 - g) * (1 - g) * (1 - s) :=
      mul_nonneg (mul_nonneg (mul_nonneg (mul_self_nonneg x) (by linarith)) (by linarith)) (by linarith)
    nlinarith
  · have k0 : k = -x := by rw [hk]; exact max_eq_right (by linarith)
    have hcx : c = x * (1 - s) := by rw [hc, k0]; ring
    rw [hcx, k0]
    -- with `r = 1 - s` and `q = (1 - g) r - g`
    set r := 1 - s with hr
    have hsr : s = 1 - r := by rw [hr]; ring
    have r0 : 0 ≤ r := by rw [hr]; linarith
    have r1 : r ≤ 1 := by rw [hr]; linarith
    rw [hsr]
    have id : (1 - g) * g * V + ((1 - g) * ((1 - g) * (x * r) + g * -x) - g * ((1 - g) * (x * r) + g * -x)) * x -
        ((1 - g) * (x * r) + g * -x) * ((1 - g) * (x * r) + g * -x) * (1 - r) =
        (1 - g) * g * (V - x * x) + x * x * ((1 - g) * g + (1 - 2 * g) * ((1 - g) * r - g) -
          ((1 - g) * r - g) * ((1 - g) * r - g) * (1 - r)) := by ring
    rw [id]
    refine add_nonneg (mul_nonneg hgg (by linarith)) (mul_nonneg (mul_self_nonneg x) ?_)
    have id2 : (1 - g) * g + (1 - 2 * g) * ((1 - g) * r - g) - ((1 - g) * r - g) * ((1 - g) * r - g) * (1 - r) =
        r * (((1 - g) * (r - 1 / 2) - g) * ((1 - g) * (r - 1 / 2) - g) + 3 / 4 * ((1 - g) * (1 - g))) := by
      ring
    rw [id2]
    exact mul_nonneg r0 (add_nonneg (mul_self_nonneg _) (mul_nonneg (by norm_num) (mul_self_nonneg _)))

/-- A node that meets an obstacle at rest does not become faster. -/
theorem resting_wall_slower (sqrt : K → K) (gap dist : K) (v n w : Fin dim → K) (mu dt : K) (hw : w = fun _ => 0)
    (hn : Spec.dot n n ≤ 1) (hmu : 0 ≤ mu) :
    Spec.dot (collideNode sqrt gap dist v n w mu dt) (collideNode sqrt gap dist v n w mu dt) ≤ Spec.dot v v := by
  have h1 := resting_wall_work sqrt gap dist v n w mu dt hw hn hmu
  set u := collideNode sqrt gap dist v n w mu dt
  have h2 := dot_self_nonneg_gen (fun a => v a - u a)
  rw [dot_sub] at h1
  rw [dot_sub, dot_comm v, dot_comm u, dot_sub, dot_sub, dot_comm u v] at h2
  linarith

/-! ### The stages of a step with obstacles -/

/-- An obstacle with the grids it acts on, its gap and its base friction. -/
structure Spec.Wall (z : Sz) (K : Type*) where
  d : Fin z.D
  gs : List (Fin z.G)
  gap : K
  base : K

/-- The colliders of a list of obstacles. -/
def wallList (fn : MathFns K) (walls : List (Wall z K)) : List (ForceHooks z K dim SS LS (ForceState K dim)) :=
  walls.map fun w => sdfColliderForce fn (some w.d) w.gs w.gap w.base

theorem wallList_lib (fn : MathFns K) (walls : List (Wall z K)) :
    ∀ f ∈ (wallList fn walls : List (ForceHooks z K dim SS LS (ForceState K dim))), LibForce f := by
  intro f hf
  obtain ⟨q, -, rfl⟩ := List.mem_map.mp hf
  exact .sdfCollider _ _ _ _ _

theorem wall_pass (fn : MathFns K) (walls : List (Wall z K)) (x x' : Ctx z K dim SS LS (ForceState K dim))
    (dt time : K) : (runHook ForceHooks.preP2g (wallList fn walls) x dt time = .ok x' → x' = x) ∧
      (runHook ForceHooks.gridForces (wallList fn walls) x dt time = .ok x' → x' = x) := by
  constructor
  all_goals
    intro h
    refine foldE_inv (I := fun y => y = x) _ x x' rfl ?_ h
    rintro f hf s s' rfl hs
    obtain ⟨q, -, rfl⟩ := List.mem_map.mp hf
    exact (Except.ok.inj hs).symm

/-- The obstacle of `w` as the nodes see it in the step from `st`. -/
def Spec.wallGeom (sv : Solver z K dim SS LS (ForceState K dim)) (st : SimState z K dim SS LS (ForceState K dim))
    (g : Fin z.G) (d : Fin z.D) : Geom K dim ℕ :=
  { dists := fun j => (sv.sdfs d).dist ((sv.sdfs d).updateKin (st.world.sdfs d) st.dt) ((sv.domains g).positionStack j)
      - (sv.domains g).cellSize * 1
    normals := fun j => (sv.sdfs d).normal ((sv.sdfs d).updateKin (st.world.sdfs d) st.dt)
      ((sv.domains g).positionStack j)
    wallVels := fun j => (sv.sdfs d).velocity ((sv.sdfs d).updateKin (st.world.sdfs d) st.dt)
      ((sv.domains g).positionStack j) st.dt
    friction := fun j => (sv.sdfs d).friction ((sv.sdfs d).updateKin (st.world.sdfs d) st.dt)
      ((sv.domains g).positionStack j) }

/-- What a list of colliders does to the arrays of grid `g`. -/
def wallGrid (sqrt : K → K) (dt : K) (geo : Fin z.D → Geom K dim ℕ) (g : Fin z.G) (walls : List (Wall z K))
    (gr : GridArrays K dim) : GridArrays K dim :=
  walls.foldl (fun gr w => (collideGrid sqrt w.gap w.base dt (geo w.d))^[w.gs.count g] gr) gr

theorem collider_fold (fn : MathFns K) (w : Wall z K) (dt time : K) (x x' : Ctx z K dim SS LS (ForceState K dim))
    (h : (sdfColliderForce fn (some w.d) w.gs w.gap w.base).gridMoments x dt time = .ok x') (g : Fin z.G) :
    x'.cache.grids g = (collideGrid fn.sqrt w.gap w.base dt (x.cache.nodeGeoms g w.d))^[w.gs.count g] (x.cache.grids g) := by
  obtain ⟨d, gs, gap, base⟩ := w
  have := Except.ok.inj h; subst this
  clear h
  dsimp only
  induction gs generalizing x with
  | nil => rfl
  | cons b gs ih =>
    rw [List.foldl_cons, ih]
    by_cases hb : g = b
    · subst hb
      simp only [Ctx.setGrid, Function.update_self, List.count_cons_self, Function.iterate_succ_apply]
    · simp only [Ctx.setGrid, Function.update_of_ne hb, List.count_cons_of_ne (Ne.symm hb)]

theorem wall_fold (fn : MathFns K) (walls : List (Wall z K)) (dt time : K) (x x' : Ctx z K dim SS LS (ForceState K dim))
    (h : runHook ForceHooks.gridMoments (wallList fn walls) x dt time = .ok x') (g : Fin z.G) :
    x'.cache.grids g = wallGrid fn.sqrt dt (x.cache.nodeGeoms g) g walls (x.cache.grids g) := by
  unfold runHook wallList at h
  induction walls generalizing x with
  | nil =>
    have : x = x' := by simpa [foldE] using h
    subst this
    rfl
  | cons w walls ih =>
    obtain ⟨x1, h1, h2⟩ := foldE_cons_ok.mp h
    rw [ih x1 h2, collider_fold fn w dt time x x1 h1 g,
      libForce_nodeGeoms (.sdfCollider fn (some w.d) w.gs w.gap w.base) x x1 dt time (.inr h1)]
    rfl

/-- The colliders change nothing but the momenta after the step. -/
theorem wallGrid_same (sqrt : K → K) (dt : K) (geo : Fin z.D → Geom K dim ℕ) (g : Fin z.G) (walls : List (Wall z K))
    (gr : GridArrays K dim) : (wallGrid sqrt dt geo g walls gr).mass = gr.mass ∧
      (wallGrid sqrt dt geo g walls gr).moment = gr.moment ∧ (wallGrid sqrt dt geo g walls gr).force = gr.force := by
  unfold wallGrid
  induction walls generalizing gr with
  | nil => exact ⟨rfl, rfl, rfl⟩
  | cons w walls ih =>
    have hi : ∀ (m : ℕ) (gr : GridArrays K dim), ((collideGrid sqrt w.gap w.base dt (geo w.d))^[m] gr).mass = gr.mass ∧
      ((collideGrid sqrt w.gap w.base dt (geo w.d))^[m] gr).moment = gr.moment ∧
      ((collideGrid sqrt w.gap w.base dt (geo w.d))^[m] gr).force = gr.force := by
      intro m
      induction m with
      | zero => exact fun _ => ⟨rfl, rfl, rfl⟩
      | succ m ih => intro gr; rw [Function.iterate_succ_apply]; exact ih _
    rw [List.foldl_cons]
    obtain ⟨a1, a2, a3⟩ := ih ((collideGrid sqrt w.gap w.base dt (geo w.d))^[w.gs.count g] gr)
    obtain ⟨b1, b2, b3⟩ := hi (w.gs.count g) gr
    exact ⟨a1.trans b1, a2.trans b2, a3.trans b3⟩

/-- Stages of a USL call under gravity and colliders. -/
structure WallStages (fn fn' : MathFns K) (sv : Solver z K dim SS LS (ForceState K dim)) (gravs : List (List (Fin z.G) × ℕ))
    (walls : List (Wall z K)) (st st' : SimState z K dim SS LS (ForceState K dim)) (grids : Fin z.G → GridArrays K dim)
    (f : Fin z.G → ℕ → Fin dim → K) (x3 x4 : Ctx z K dim SS LS (ForceState K dim)) : Prop
    extends UslGather fn sv gravs st st' grids f x3 x4 where
  momentNt : ∀ c ∈ sv.couplings, c.skip = false → ∃ gr : GridArrays K dim, gr.mass = (grids c.g).mass ∧
    (gr.momentNt = fun j a => (grids c.g).moment j a + (grids c.g).force j a * st.dt) ∧
    grids c.g = wallGrid fn'.sqrt st.dt (wallGeom sv st c.g) c.g walls gr

theorem wall_stages (gravs : List (List (Fin z.G) × ℕ)) (walls : List (Wall z K)) (hdim : dim = 2 ∨ dim = 3)
    (hforces : sv.forces = gravityList gravs ++ wallList fn' walls) {st st' : SimState z K dim SS LS (ForceState K dim)}
    (h : uslCall fn sv st = .ok st') {cut : K} (hr : Regular cut sv st.world) :
    ∃ grids f x3 x4, WallStages fn fn' sv gravs walls st st' grids f x3 x4 := by
  have hlib : ∀ f ∈ sv.forces, LibForce f := by
    intro f hf
    rw [hforces, List.mem_append] at hf
    exact hf.elim (gravityList_lib gravs f) (wallList_lib fn' walls f)
  obtain ⟨wm, x1, x2, x3, x4, h1, h2, h3, h4, h5, rfl⟩ := callWith_ok h
  have hk := kinematicUpdate_lib hlib _ _ _ _ _ h1
  obtain ⟨x0, h20, h21⟩ := andThen_ok.mp h2
  rw [hforces] at h20
  obtain ⟨x00, h20, h20'⟩ := foldE_append _ _ h20
  have hx00 := (gravity_pass gravs _ _ _ _).1 h20
  have hx0 := (wall_pass fn' walls _ _ _ _).1 h20'
  subst hx00
  subst hx0
  obtain ⟨y0, h31, h3⟩ := andThen_ok.mp h3
  obtain ⟨y2, h32, h33⟩ := andThen_ok.mp h3
  rw [hforces] at h31 h33
  obtain ⟨y1, h31, h31'⟩ := foldE_append _ _ h31
  obtain rfl : y0 = y1 := (wall_pass fn' walls _ _ _ _).2 h31'
  rename' y0 => y1
  obtain ⟨y20, h33, h33'⟩ := foldE_append _ _ h33
  obtain rfl : y20 = y2 := (gravity_pass gravs _ _ _ _).2 h33
  rename' y20 => y2
  set w0 := resetMaterialPoints sv wm.1 with hw0
  have hbod : wm.1.bodies = st.world.bodies := hk.1
  have hnm := fun p => reset_nodeMass sv wm.1 p
  rw [← hw0, hbod] at hnm
  have hact : ∀ c ∈ sv.couplings, ∀ t, w0.bodies c.p = .deformable t →
      ∃ s, st.world.bodies c.p = .deformable s ∧ t = resetBody s := by
    intro c hc t ht
    have := reset_active sv wm.1 c hc t ht
    rwa [hbod] at this
  have hgood : ∀ c ∈ sv.couplings, c.skip = false → ∀ s, st.world.bodies c.p = .deformable s →
      GoodCache (compute c.ker (sv.domains c.g) s.position) (sv.domains c.g).numCells := by
    intro c hc hs s hb
    obtain ⟨o, e, hh, pad, hpos, hpad, hd, hx⟩ := hr.box c hc hs
    rw [hb] at hx
    rw [hd]
    exact goodCache_of_inBox hdim c.ker o e hh hpos pad hpad s.position hx
  have hl0 : HasLists sv.domains (⟨w0, wm.2, buildCache fn sv w0 st.dt⟩ : Ctx z K dim SS LS (ForceState K dim))
      sv.couplings := by
    intro c hc
    change (buildCache fn sv w0 st.dt).interactions c.p c.g = _
    rw [buildCache_interactions]
    exact computeConnectivity_self sv w0 hr.single c hc
  have s1 := p2g_fold_sums sv.domains sv.couplings _ x1 hl0 h21
  have o1 := p2g_fold_ok sv.domains sv.couplings _ x1 hl0 h21 (by
      intro c hc hs
      change GoodBody c.ker (sv.domains c.g) (w0.bodies c.p)
      cases hb : w0.bodies c.p with
      | rigid _ => trivial
      | deformable t =>
        obtain ⟨s, e1, rfl⟩ := hact c hc t hb
        exact ⟨hgood c hc hs s e1, hr.mass_pos c hc hs s e1⟩) (by
      intro c hc hs t ht
      obtain ⟨s, e1, rfl⟩ := hact c hc t ht
      exact fun _ _ => rfl)
    (fun g => ⟨fun _ => le_rfl, fun _ _ _ => ⟨rfl, rfl⟩, fun a => by simp [buildCache, GridArrays.new]⟩)
  have w1 := same_of_fold sv.couplings _ x1 (fun c _ x x' hx => p2gCoupling_world x x' c hx) h21
  have g1 := gravity_fold gravs x1 y1 _ _ h31
  have wy1 : y1.world = x1.world ∧ y1.mech = x1.mech ∧ y1.cache.interactions = x1.cache.interactions ∧
      y1.cache.mpGeoms = x1.cache.mpGeoms := same_of_fold (gravityList gravs) x1 y1
    (fun f hfm x x' hx => libForce_gridForces (gravityList_lib gravs f hfm) x x' _ _ hx) h31
  have hmech1 : x1.mech = st.mech := w1.2.1.trans hk.2.1
  have i1 := integrate_fold st.dt sv.couplings y1 y2 h32
  have wy2 := same_of_fold sv.couplings y1 y2
    (fun c _ x x' hx => integrateCoupling_world st.dt x x' c hx) h32
  -- the obstacles
  have c1 := fun g => wall_fold fn' walls st.dt st.time y2 x2 h33' g
  have wx2 : x2.world = y2.world ∧ x2.mech = y2.mech ∧ x2.cache.interactions = y2.cache.interactions ∧
      x2.cache.mpGeoms = y2.cache.mpGeoms := same_of_fold (wallList fn' walls) y2 x2
    (fun f hfm x x' hx => libForce_gridMoments (wallList_lib fn' walls f hfm) x x' _ _ hx) h33'
  have n1 : y2.cache.nodeGeoms = wallGeom sv st := by
    have a1 : x1.cache.nodeGeoms = (buildCache fn sv w0 st.dt).nodeGeoms := by
      refine foldE_inv (I := fun y => y.cache.nodeGeoms = (buildCache fn sv w0 st.dt).nodeGeoms) sv.couplings _ x1 rfl ?_ h21
      intro b _ y y' hy hyy
      rw [← hy]
      unfold p2gCoupling at hyy
      split_ifs at hyy
      · rw [← Except.ok.inj hyy]
      · split at hyy
        · exact absurd hyy (by simp)
        · split at hyy
          · exact absurd hyy (by simp)
          · split_ifs at hyy
            rw [← Except.ok.inj hyy]; rfl
    have a2 : y1.cache.nodeGeoms = x1.cache.nodeGeoms :=
      foldE_inv (I := fun y => y.cache.nodeGeoms = x1.cache.nodeGeoms) (gravityList gravs) x1 y1 rfl
        (fun f hfm y y' hy hyy => (libForce_nodeGeoms (gravityList_lib gravs f hfm) y y' _ _ (.inl hyy)).trans hy) h31
    have a3 : y2.cache.nodeGeoms = y1.cache.nodeGeoms := by
      refine foldE_inv (I := fun y => y.cache.nodeGeoms = y1.cache.nodeGeoms) sv.couplings y1 y2 rfl ?_ h32
      intro b _ y y' hy hyy
      rw [← hy]
      unfold integrateCoupling at hyy
      split_ifs at hyy <;> · rw [← Except.ok.inj hyy]; try rfl
    rw [a3, a2, a1]
    funext g d
    simp only [buildCache, sdfGeom, hw0, resetMaterialPoints, hk.2.2, wallGeom]
  have hwy : x2.world = w0 := by rw [wx2.1, wy2.1, wy1.1, w1.1]
  have hl2 : HasLists sv.domains x2 sv.couplings := by
    intro c hc
    rw [wx2.2.2.1, wy2.2.2.1, wy1.2.2.1, w1.2.2.1, hwy]
    exact hl0 c hc
  obtain ⟨-, gm, gb, go⟩ := g2p_fold sv.alpha st.dt sv.domains sv.couplings hr.single x2 x3 hl2 h4
  have hsame := fun g => wallGrid_same fn'.sqrt st.dt (y2.cache.nodeGeoms g) g walls (y2.cache.grids g)
  have hmass2 : ∀ g, (x2.cache.grids g).mass = (y2.cache.grids g).mass := fun g => by rw [c1 g]; exact (hsame g).1
  have hmom2 : ∀ g, (x2.cache.grids g).moment = (y2.cache.grids g).moment := fun g => by rw [c1 g]; exact (hsame g).2.1
  have hfor2 : ∀ g, (x2.cache.grids g).force = (y2.cache.grids g).force := fun g => by rw [c1 g]; exact (hsame g).2.2
  have hmass : ∀ g j, (x2.cache.grids g).mass j = (x1.cache.grids g).mass j := by
    intro g j; rw [hmass2, (i1 g).1, g1 g]
  have hmom : ∀ g j a, (x2.cache.grids g).moment j a = (x1.cache.grids g).moment j a := by
    intro g j a; rw [hmom2, (i1 g).2.1, g1 g]
  refine ⟨x2.cache.grids, fun g => (x1.cache.grids g).force, x3, x4, ⟨?_, ?_, ?_, ?_, ?_, ?_, ?_, ?_, ?_, ?_, ?_, h5, rfl,
    rfl, rfl⟩, ?_⟩
  · intro g j
    rw [hmass, (s1 g j).1]
    simp only [hnm]
    simp [buildCache, GridArrays.new]
  · intro g j a
    rw [hmom, (s1 g j).2 a]
    simp only [hnm]
    simp [buildCache, GridArrays.new]
  · intro g j a
    rw [hfor2, (i1 g).2.2.1, hmass, g1 g, hmech1]
  · exact fun g a => (o1 g).force_sum a
  · intro g j; rw [hmass]; exact (o1 g).mass_nonneg j
  · intro g j hm a
    rw [hmass] at hm
    rw [hmom]
    exact (o1 g).empty j hm a
  · intro hsf g j a
    refine p2g_fold_stressfree sv.domains sv.couplings _ x1 hl0 h21 ?_ (fun _ _ _ => rfl) g j a
    intro c hc hs t ht
    obtain ⟨s, e1, rfl⟩ := hact c hc t ht
    exact fun q => ⟨hsf c hc hs s e1 q, fun _ => rfl⟩
  · intro c hc hs hone s e1
    have hb0 : w0.bodies c.p = .deformable (resetBody s) := by
      rcases hb : w0.bodies c.p with t | t
      · obtain ⟨s2, e2, rfl⟩ := hact c hc t hb
        rw [e1] at e2
        cases e2
        rfl
      · obtain ⟨t2, e2, e3⟩ := gb c hc hs
        rw [hwy, hb] at e2
        cases e2
    exact p2g_fold_force sv.domains c (resetBody s) sv.couplings _ x1 hl0 h21 hs hb0 hone (.inl hc)
  · intro c hc hs
    obtain ⟨t, e1, e2⟩ := gb c hc hs
    rw [hwy] at e1
    obtain ⟨s, e3, rfl⟩ := hact c hc t e1
    exact ⟨s, e3, hgood c hc hs s e3, hr.mass_pos c hc hs s e3, e2⟩
  · intro p hp
    rw [go p hp, hwy]
    have := reset_body sv wm.1 p
    rwa [hbod] at this
  · rw [gm, wx2.2.1, wy2.2.1, wy1.2.1, hmech1]
  · intro c hc hs
    refine ⟨y2.cache.grids c.g, (hmass2 c.g).symm, ?_, ?_⟩
    · rw [(i1 c.g).2.2.2 ⟨c, hc, hs, rfl⟩, hmom2, hfor2, (i1 c.g).2.1, (i1 c.g).2.2.1]
    · rw [← n1]; exact c1 c.g

/-! ### Energy -/

/-- Energy of the scene after a step in which no node gains more than the power of the forces on it. -/
theorem gather_energy {gravs : List (List (Fin z.G) × ℕ)} (hL : ∀ c, (sv.laws c).OnlyStress) (h0 : 0 ≤ sv.alpha)
    (h1 : sv.alpha ≤ 1) {st st' : SimState z K dim SS LS (ForceState K dim)} {cut : K} (hr : Regular cut sv st.world)
    {grids : Fin z.G → GridArrays K dim} {f : Fin z.G → ℕ → Fin dim → K} {x3 x4 : Ctx z K dim SS LS (ForceState K dim)}
    (S : UslGather fn sv gravs st st' grids f x3 x4)
    (hnode : ∀ g j, (grids g).mass j * (1 / 2 * ∑ a, nodeVel uslCutoff ((grids g).mass j) ((grids g).momentNt j a) ^ 2) ≤
      (grids g).mass j * (1 / 2 * ∑ a, nodeVel uslCutoff ((grids g).mass j) ((grids g).moment j a) ^ 2) +
        ∑ a, st.dt * ((grids g).force j a * nodeVel uslCutoff ((grids g).mass j) ((grids g).momentNt j a))) :
    totalKE st'.world ≤ totalKE st.world + ∑ g, ∑ j ∈ Finset.range (sv.domains g).numCells, ∑ a, st.dt *
        (f g j a * nodeVel uslCutoff ((grids g).mass j) ((grids g).momentNt j a)) +
      activeSum sv.couplings (fun c => gravityWork (gridAccel st.mech.forces gravs c.g) (st.world.bodies c.p)
        (st'.world.bodies c.p)) := by
  have hlaw := (law_fold hL st.dt sv.couplings x3 x4 S.law).2
  have hcut : (0 : K) ≤ uslCutoff := by unfold uslCutoff; positivity
  let U : Fin z.G → ℕ → Fin dim → K := fun g j a => nodeVel uslCutoff ((grids g).mass j) ((grids g).moment j a)
  let W : Fin z.G → ℕ → Fin dim → K := fun g j a => nodeVel uslCutoff ((grids g).mass j) ((grids g).momentNt j a)
  let B : Fin z.G → Coupling z → ℕ → Fin dim → K := fun g c j a =>
    (1 - sv.alpha) * ((st.world.bodies c.p).nodeMass c.ker (sv.domains c.g) j * (1 / 2 * W g j a ^ 2)) +
      sv.alpha * ((st.world.bodies c.p).nodeMoment c.ker (sv.domains c.g) j a * (W g j a - U g j a) +
        (st.world.bodies c.p).nodeMass c.ker (sv.domains c.g) j * (1 / 2 * (W g j a - U g j a) ^ 2))
  have up : ∀ c ∈ sv.couplings, c.skip = false → bodyKE (st'.world.bodies c.p) ≤
      sv.alpha * bodyKE (st.world.bodies c.p) + ∑ j ∈ Finset.range (sv.domains c.g).numCells, ∑ a, B c.g c j a := by
    intro c hc hs
    obtain ⟨s, e1, hgc, hmp, e2⟩ := S.body c hc hs
    rw [S.world', bodyKE_rel (hlaw c.p), e2]
    refine (g2p_energy hgc h0 h1 st.dt (grids c.g) (resetBody s) hmp).trans (le_of_eq ?_)
    simp only [B, e1, W, U]
    rfl
  have hgrav : ∀ c ∈ sv.couplings, c.skip = false →
      gravityWork (gridAccel st.mech.forces gravs c.g) (st.world.bodies c.p) (st'.world.bodies c.p) =
      ∑ j ∈ Finset.range (sv.domains c.g).numCells, (st.world.bodies c.p).nodeMass c.ker (sv.domains c.g) j *
        ∑ a, st.dt * (gridAccel st.mech.forces gravs c.g a * W c.g j a) := by
    intro c hc hs
    obtain ⟨s, e1, hgc, hmp, e2⟩ := S.body c hc hs
    have hl := hlaw c.p
    rw [e2, ← S.world'] at hl
    cases hb : st'.world.bodies c.p with
    | rigid _ => rw [hb] at hl; exact hl.elim
    | deformable s' =>
      rw [hb] at hl
      obtain ⟨-, -, l3, -⟩ := hl
      rw [e1]
      simp only [gravityWork, Body.nodeMass, Finset.mul_sum]
      rw [Finset.sum_comm]
      refine Eq.trans ?_ Finset.sum_comm
      refine Finset.sum_congr rfl fun a _ => ?_
      have hi := sum_mass_interp hgc s.mass (fun j => st.dt * (gridAccel st.mech.forces gravs c.g a * W c.g j a))
      refine Eq.trans (Finset.sum_congr rfl fun p _ => ?_) hi
      have hx : s'.position p a - s.position p a =
          pointSum (compute c.ker (sv.domains c.g) s.position) (fun i =>
            (compute c.ker (sv.domains c.g) s.position).shapeVal i *
              W c.g ((compute c.ker (sv.domains c.g) s.position).nodeHash i) a) p * st.dt := by
        rw [l3]
        simp only [g2pBody, ghostBlend, resetBody, W]
        ring
      rw [hx, mul_comm _ st.dt, ← mul_assoc (gridAccel _ _ _ _), ← pointSum_mul]
      congr 2
      funext i
      ring
  have hK := totalKE_active hL hr S
  have hsum := gridSum_le _ _ _ up
  have hG := scene_grid_ke S
  rw [activeSum_congr _ _ _ hgrav]
  rw [activeSum_add, ← activeSum_mul,
    ← sum_gridSum sv.couplings (fun g c => ∑ j ∈ Finset.range (sv.domains g).numCells, ∑ a, B g c j a)] at hsum
  rw [← sum_gridSum sv.couplings (fun g c => ∑ j ∈ Finset.range (sv.domains g).numCells,
    (st.world.bodies c.p).nodeMass c.ker (sv.domains c.g) j * ∑ a, st.dt * (gridAccel st.mech.forces gravs g a * W g j a))]
  have hsc : ∑ g, gridSum sv.couplings g (fun c => ∑ j ∈ Finset.range (sv.domains g).numCells, ∑ a, B g c j a) ≤
      (1 - sv.alpha) * (∑ g, ∑ j ∈ Finset.range (sv.domains g).numCells, (grids g).mass j * (1 / 2 * ∑ a, U g j a ^ 2)) +
      (∑ g, ∑ j ∈ Finset.range (sv.domains g).numCells, ∑ a, st.dt * (f g j a * W g j a) +
      ∑ g, gridSum sv.couplings g (fun c => ∑ j ∈ Finset.range (sv.domains g).numCells,
        (st.world.bodies c.p).nodeMass c.ker (sv.domains c.g) j *
          ∑ a, st.dt * (gridAccel st.mech.forces gravs g a * W g j a))) := by
    rw [Finset.mul_sum, ← Finset.sum_add_distrib, ← Finset.sum_add_distrib]
    refine Finset.sum_le_sum fun g _ => ?_
    rw [← gridSum_sum, ← gridSum_sum, Finset.mul_sum, ← Finset.sum_add_distrib, ← Finset.sum_add_distrib]
    refine Finset.sum_le_sum fun j _ => ?_
    rw [← gridSum_mul, ← S.mass g j, ← gridSum_sum]
    have hB : ∀ a, gridSum sv.couplings g (fun c => B g c j a) =
        (1 - sv.alpha) * ((grids g).mass j * (1 / 2 * W g j a ^ 2)) +
        sv.alpha * ((grids g).moment j a * (W g j a - U g j a) + (grids g).mass j * (1 / 2 * (W g j a - U g j a) ^ 2)) := by
      intro a
      simp only [B]
      rw [S.mass, S.moment, gridSum_add]
      simp only [mul_comm (1 - sv.alpha), mul_comm sv.alpha, ← gridSum_mul, gridSum_add]
    have hP : ∀ a, (1 - sv.alpha) * ((grids g).mass j * (1 / 2 * W g j a ^ 2)) +
        sv.alpha * ((grids g).moment j a * (W g j a - U g j a) + (grids g).mass j * (1 / 2 * (W g j a - U g j a) ^ 2)) =
        (grids g).mass j * (1 / 2 * W g j a ^ 2) - sv.alpha * ((grids g).mass j * (1 / 2 * U g j a ^ 2)) := by
      intro a
      by_cases hm : (grids g).mass j > uslCutoff
      · have hu : (grids g).mass j * U g j a = (grids g).moment j a := mul_nodeVel hm (lt_of_le_of_lt hcut hm)
        rw [← hu]; ring
      · have : ∀ q, nodeVel uslCutoff ((grids g).mass j) q = 0 := fun q => by unfold nodeVel; rw [if_neg hm]
        simp [W, U, this]
    simp only [hB, hP]
    rw [Finset.sum_sub_distrib, ← Finset.mul_sum, ← Finset.mul_sum, ← Finset.mul_sum, ← Finset.mul_sum, ← Finset.mul_sum]
    have hn := hnode g j
    have hforce : ∑ a, st.dt * ((grids g).force j a * W g j a) = ∑ a, st.dt * (f g j a * W g j a) +
        (grids g).mass j * ∑ a, st.dt * (gridAccel st.mech.forces gravs g a * W g j a) := by
      rw [Finset.mul_sum, ← Finset.sum_add_distrib]
      refine Finset.sum_congr rfl fun a _ => ?_
      rw [S.force]
      ring
    simp only [W, U] at hforce hn ⊢
    rw [hforce] at hn
    linarith
  have hG' := mul_le_mul_of_nonneg_left hG (sub_nonneg.mpr h1)
  simp only [W, U] at *
  linarith

/-- The obstacle `w` is at rest in the step from `st`: it does not move at the nodes of its grids, its normals are not longer
than one and its friction is not negative. -/
structure Spec.AtRest (sv : Solver z K dim SS LS (ForceState K dim)) (st : SimState z K dim SS LS (ForceState K dim))
    (w : Wall z K) : Prop where
  still : ∀ g ∈ w.gs, ∀ j, (wallGeom sv st g w.d).wallVels j = fun _ => 0
  normal : ∀ g ∈ w.gs, ∀ j, Spec.dot ((wallGeom sv st g w.d).normals j) ((wallGeom sv st g w.d).normals j) ≤ 1
  friction : ∀ g ∈ w.gs, ∀ j, 0 ≤ w.base * (wallGeom sv st g w.d).friction j

/-- A node of a grid on which one obstacle at rest acts at most once. -/
theorem wall_node (sqrt : K → K) (geo : Fin z.D → Geom K dim ℕ) (g : Fin z.G) (walls : List (Wall z K))
    (hone : (walls.flatMap Wall.gs).Nodup)
    (hrest : ∀ w ∈ walls, g ∈ w.gs → (∀ j, (geo w.d).wallVels j = fun _ => 0) ∧
      (∀ j, Spec.dot ((geo w.d).normals j) ((geo w.d).normals j) ≤ 1) ∧ ∀ j, 0 ≤ w.base * (geo w.d).friction j)
    (dt : K) (gr : GridArrays K dim) (j : ℕ) :
    0 ≤ Spec.dot (fun a => nodeVel uslCutoff (gr.mass j) (gr.momentNt j a) -
        nodeVel uslCutoff (gr.mass j) ((wallGrid sqrt dt geo g walls gr).momentNt j a))
      (fun a => nodeVel uslCutoff (gr.mass j) ((wallGrid sqrt dt geo g walls gr).momentNt j a)) := by
  unfold wallGrid
  induction walls with
  | nil => simp [Spec.dot]
  | cons w walls ih =>
    rw [List.foldl_cons]
    rw [List.flatMap_cons, List.nodup_append'] at hone
    obtain ⟨n1, n2, n3⟩ := hone
    by_cases hg : g ∈ w.gs
    · have hskip : ∀ (ws : List (Wall z K)) (gr : GridArrays K dim), (∀ v ∈ ws, g ∉ v.gs) →
          ws.foldl (fun gr w => (collideGrid sqrt w.gap w.base dt (geo w.d))^[w.gs.count g] gr) gr = gr := by
        intro ws
        induction ws with
        | nil => exact fun _ _ => rfl
        | cons v ws ihw =>
          intro gr hv
          rw [List.foldl_cons, List.count_eq_zero_of_not_mem (hv v (by simp))]
          exact ihw _ fun u hu => hv u (by simp [hu])
      rw [hskip walls _ fun v hv hgv => n3 hg (List.mem_flatMap.mpr ⟨v, hv, hgv⟩), List.count_eq_one_of_mem n1 hg]
      obtain ⟨r1, r2, r3⟩ := hrest w (by simp) hg
      simp only [Function.iterate_one, collideGrid]
      by_cases hm : gr.mass j > uslCutoff
      · have hm14 : gr.mass j > 1 / 10 ^ 14 := lt_trans (by norm_num [uslCutoff]) hm
        have hm0 : gr.mass j ≠ 0 := (lt_trans (by positivity) hm14).ne'
        have := resting_wall_work sqrt w.gap ((geo w.d).dists j) (fun b => gr.momentNt j b * (1 / gr.mass j))
          ((geo w.d).normals j) ((geo w.d).wallVels j) (w.base * (geo w.d).friction j) dt (r1 j) (r2 j) (r3 j)
        simp only [nodeVel, if_pos hm, if_pos hm14, mul_div_cancel_right₀ _ hm0]
        simpa only [mul_one_div] using this
      · have : ∀ q, nodeVel uslCutoff (gr.mass j) q = 0 := fun q => by unfold nodeVel; rw [if_neg hm]
        simp [this, Spec.dot]
    · rw [List.count_eq_zero_of_not_mem hg]
      exact ih n2 fun v hv => hrest v (by simp [hv])

/-- Several obstacles one after the other: the node does not become faster. -/
theorem walls_slower (sqrt : K → K) (geo : Fin z.D → Geom K dim ℕ) (g : Fin z.G) (walls : List (Wall z K))
    (hrest : ∀ w ∈ walls, g ∈ w.gs → (∀ j, (geo w.d).wallVels j = fun _ => 0) ∧
      (∀ j, Spec.dot ((geo w.d).normals j) ((geo w.d).normals j) ≤ 1) ∧ ∀ j, 0 ≤ w.base * (geo w.d).friction j)
    (dt : K) (gr : GridArrays K dim) (j : ℕ) :
    ∑ a, nodeVel uslCutoff (gr.mass j) ((wallGrid sqrt dt geo g walls gr).momentNt j a) ^ 2 ≤
      ∑ a, nodeVel uslCutoff (gr.mass j) (gr.momentNt j a) ^ 2 := by
  unfold wallGrid
  induction walls generalizing gr with
  | nil => exact le_rfl
  | cons w walls ih =>
    rw [List.foldl_cons]
    have hit : ∀ (m : ℕ) (gr : GridArrays K dim), (m ≠ 0 → g ∈ w.gs) →
        ((collideGrid sqrt w.gap w.base dt (geo w.d))^[m] gr).mass = gr.mass ∧
        ∑ a, nodeVel uslCutoff (gr.mass j) (((collideGrid sqrt w.gap w.base dt (geo w.d))^[m] gr).momentNt j a) ^ 2 ≤
          ∑ a, nodeVel uslCutoff (gr.mass j) (gr.momentNt j a) ^ 2 := by
      intro m
      induction m with
      | zero => exact fun gr _ => ⟨rfl, le_rfl⟩
      | succ m ihm =>
        intro gr hg
        have hg := hg (by omega)
        rw [Function.iterate_succ_apply]
        obtain ⟨a1, a2⟩ := ihm (collideGrid sqrt w.gap w.base dt (geo w.d) gr) fun _ => hg
        refine ⟨a1, a2.trans ?_⟩
        obtain ⟨r1, r2, r3⟩ := hrest w (by simp) hg
        simp only [collideGrid]
        by_cases hm : gr.mass j > uslCutoff
        · have hm14 : gr.mass j > 1 / 10 ^ 14 := lt_trans (by norm_num [uslCutoff]) hm
          have hm0 : gr.mass j ≠ 0 := (lt_trans (by positivity) hm14).ne'
          have := resting_wall_slower sqrt w.gap ((geo w.d).dists j) (fun b => gr.momentNt j b * (1 / gr.mass j))
            ((geo w.d).normals j) ((geo w.d).wallVels j) (w.base * (geo w.d).friction j) dt (r1 j) (r2 j) (r3 j)
          simp only [nodeVel, if_pos hm, if_pos hm14, mul_div_cancel_right₀ _ hm0]
          simpa only [mul_one_div, sq, Spec.dot] using this
        · have : ∀ q, nodeVel uslCutoff (gr.mass j) q = 0 := fun q => by unfold nodeVel; rw [if_neg hm]
          simp [this]
    obtain ⟨b1, b2⟩ := hit (w.gs.count g) gr fun h => List.count_pos_iff.mp (Nat.pos_of_ne_zero h)
    have := ih (fun v hv => hrest v (by simp [hv])) ((collideGrid sqrt w.gap w.base dt (geo w.d))^[w.gs.count g] gr)
    rw [b1] at this
    exact this.trans b2

/-- With at most one obstacle per grid, no node gains more than the power of the forces on it. -/
theorem wall_stages_node {gravs : List (List (Fin z.G) × ℕ)} {walls : List (Wall z K)}
    {st st' : SimState z K dim SS LS (ForceState K dim)}
    {grids : Fin z.G → GridArrays K dim} {f : Fin z.G → ℕ → Fin dim → K} {x3 x4 : Ctx z K dim SS LS (ForceState K dim)}
    (S : WallStages fn fn' sv gravs walls st st' grids f x3 x4) (hone : (walls.flatMap Wall.gs).Nodup)
    (hrest : ∀ w ∈ walls, AtRest sv st w) (g : Fin z.G) (j : ℕ) :
    (grids g).mass j * (1 / 2 * ∑ a, nodeVel uslCutoff ((grids g).mass j) ((grids g).momentNt j a) ^ 2) ≤
      (grids g).mass j * (1 / 2 * ∑ a, nodeVel uslCutoff ((grids g).mass j) ((grids g).moment j a) ^ 2) +
        ∑ a, st.dt * ((grids g).force j a * nodeVel uslCutoff ((grids g).mass j) ((grids g).momentNt j a)) := by
  have hcut : (0 : K) ≤ uslCutoff := by unfold uslCutoff; positivity
  by_cases hm : (grids g).mass j > uslCutoff
  swap
  · have : ∀ q, nodeVel uslCutoff ((grids g).mass j) q = 0 := fun q => by unfold nodeVel; rw [if_neg hm]
    simp [this]
  have hm0 : 0 < (grids g).mass j := lt_of_le_of_lt hcut hm
  obtain ⟨c, hc, hs, rfl⟩ : ∃ c ∈ sv.couplings, c.skip = false ∧ c.g = g :=
    gridSum_ne_zero _ _ _ (by rw [← S.mass g j]; exact hm0.ne')
  obtain ⟨gr, e1, e2, e3⟩ := S.momentNt c hc hs
  have hw := wall_node fn'.sqrt (wallGeom sv st c.g) c.g walls hone
    (fun w hw hg => ⟨(hrest w hw).still c.g hg, (hrest w hw).normal c.g hg, (hrest w hw).friction c.g hg⟩) st.dt gr j
  rw [← e3, e1, e2] at hw
  set M := (grids c.g).mass j
  have hR : ∀ a, st.dt * (grids c.g).force j a = M * (nodeVel uslCutoff M ((grids c.g).moment j a + (grids c.g).force j a * st.dt) -
      nodeVel uslCutoff M ((grids c.g).moment j a)) := by
    intro a
    rw [mul_sub, mul_nodeVel hm hm0, mul_nodeVel hm hm0]
    ring
  have hw' := mul_nonneg hm0.le hw
  simp only [Spec.dot, Finset.mul_sum] at hw'
  simp only [Finset.mul_sum, ← mul_assoc st.dt, hR]
  rw [← Finset.sum_add_distrib, ← sub_nonneg, ← Finset.sum_sub_distrib]
  refine hw'.trans (Finset.sum_le_sum fun a _ => ?_)
  set u := nodeVel uslCutoff M ((grids c.g).moment j a)
  set v := nodeVel uslCutoff M ((grids c.g).moment j a + (grids c.g).force j a * st.dt)
  set w := nodeVel uslCutoff M ((grids c.g).momentNt j a)
  have := mul_nonneg hm0.le (sq_nonneg (w - u))
  nlinarith

/-- **C136**, one step. Bodies on grids of their own under gravity, at most one obstacle at rest per grid: kinetic energy plus
the work absorbed by the material is at most the kinetic energy before plus the work of gravity. -/
theorem obstacle_step_energy_partial (gravs : List (List (Fin z.G) × ℕ)) (walls : List (Wall z K)) (hdim : dim = 2 ∨ dim = 3)
    (hforces : sv.forces = gravityList gravs ++ wallList fn' walls) (hL : ∀ c, (sv.laws c).OnlyStress) (h0 : 0 ≤ sv.alpha)
    (h1 : sv.alpha ≤ 1) (hown : OwnGrids sv.couplings) (hone : (walls.flatMap Wall.gs).Nodup)
    {st st' : SimState z K dim SS LS (ForceState K dim)} (h : uslCall fn sv st = .ok st') {cut : K} (hr : Regular cut sv st.world)
    (hrest : ∀ w ∈ walls, AtRest sv st w) :
    totalKE st'.world + activeSum sv.couplings (fun c => absorbedWork st.dt (st.world.bodies c.p) (st'.world.bodies c.p)) ≤
      totalKE st.world + activeSum sv.couplings (fun c =>
        gravityWork (gridAccel st.mech.forces gravs c.g) (st.world.bodies c.p) (st'.world.bodies c.p)) := by
  obtain ⟨grids, f, x3, x4, S⟩ := wall_stages gravs walls hdim hforces h hr
  have hlaw := (law_fold hL st.dt sv.couplings x3 x4 S.law).2
  have key := gather_energy hL h0 h1 hr S.toUslGather (wall_stages_node S hone hrest)
  have habs : ∀ c ∈ sv.couplings, c.skip = false →
      absorbedWork st.dt (st.world.bodies c.p) (st'.world.bodies c.p) = -∑ j ∈ Finset.range (sv.domains c.g).numCells, ∑ a,
        st.dt * (f c.g j a * nodeVel uslCutoff ((grids c.g).mass j) ((grids c.g).momentNt j a)) := by
    intro c hc hs
    obtain ⟨s, e1, hgc, hmp, e2⟩ := S.body c hc hs
    have hl := hlaw c.p
    rw [e2, ← S.world'] at hl
    cases hb : st'.world.bodies c.p with
    | rigid _ => rw [hb] at hl; exact hl.elim
    | deformable s' =>
      rw [hb] at hl
      obtain ⟨-, -, -, l4⟩ := hl
      rw [e1, S.internal c hc hs (fun b hb hbs e => hown b hb c hc hbs hs e) s e1]
      have := internal_power_absorbed hgc hdim sv.alpha st.dt (grids c.g) (resetBody s) rfl
      rw [this, neg_neg]
      simp only [absorbedWork]
      rw [l4]
      rfl
  rw [activeSum_congr _ _ _ habs]
  have hg := sum_grids sv.couplings (List.Nodup.of_map _ hr.single) hown (fun g =>
    ∑ j ∈ Finset.range (sv.domains g).numCells, ∑ a, st.dt * (f g j a * nodeVel uslCutoff ((grids g).mass j)
      ((grids g).momentNt j a))) (by
    intro g hg
    refine Finset.sum_eq_zero fun j _ => Finset.sum_eq_zero fun a _ => ?_
    have hm : (grids g).mass j = 0 := by rw [S.mass, gridSum_none _ _ _ hg]
    rw [(S.empty g j hm a).2]
    simp)
  have hneg := activeSum_mul sv.couplings (fun c => ∑ j ∈ Finset.range (sv.domains c.g).numCells, ∑ a, st.dt * (f c.g j a *
    nodeVel uslCutoff ((grids c.g).mass j) ((grids c.g).momentNt j a))) (-1)
  simp only [neg_one_mul] at hneg
  rw [← hneg, ← hg]
  linarith

/-- Stress-free bodies without gravity, any number of them on a grid, and any number of obstacles at rest on a grid: the kinetic
energy does not grow. -/
theorem obstacles_slow_down (walls : List (Wall z K)) (hdim : dim = 2 ∨ dim = 3)
    (hforces : sv.forces = wallList fn' walls) (hL : ∀ c, (sv.laws c).OnlyStress) (h0 : 0 ≤ sv.alpha)
    (h1 : sv.alpha ≤ 1) {st st' : SimState z K dim SS LS (ForceState K dim)} (h : uslCall fn sv st = .ok st') {cut : K}
    (hr : Regular cut sv st.world)
    (hσ : ∀ c ∈ sv.couplings, c.skip = false → ∀ s, st.world.bodies c.p = .deformable s → ∀ q, s.stress q = 0)
    (hrest : ∀ w ∈ walls, AtRest sv st w) : totalKE st'.world ≤ totalKE st.world := by
  obtain ⟨grids, f, x3, x4, S⟩ := wall_stages [] walls hdim (by rw [hforces]; rfl) h hr
  have hf := S.stressfree hσ
  have hF : ∀ g j a, (grids g).force j a = 0 := by
    intro g j a
    rw [S.force, hf]
    simp [gridAccel]
  have hcut : (0 : K) ≤ uslCutoff := by unfold uslCutoff; positivity
  have := gather_energy hL h0 h1 hr S.toUslGather (by
    intro g j
    simp only [hF, zero_mul, mul_zero, Finset.sum_const_zero, add_zero]
    by_cases hm : (grids g).mass j > uslCutoff
    swap
    · have : ∀ q, nodeVel uslCutoff ((grids g).mass j) q = 0 := fun q => by unfold nodeVel; rw [if_neg hm]
      simp [this]
    have hm0 : 0 < (grids g).mass j := lt_of_le_of_lt hcut hm
    obtain ⟨c, hc, hs, rfl⟩ : ∃ c ∈ sv.couplings, c.skip = false ∧ c.g = g :=
      gridSum_ne_zero _ _ _ (by rw [← S.mass g j]; exact hm0.ne')
    obtain ⟨gr, e1, e2, e3⟩ := S.momentNt c hc hs
    have hw := walls_slower fn'.sqrt (wallGeom sv st c.g) c.g walls
      (fun w hw hg => ⟨(hrest w hw).still c.g hg, (hrest w hw).normal c.g hg, (hrest w hw).friction c.g hg⟩) st.dt gr j
    rw [← e3, e1, e2] at hw
    simp only [hF, zero_mul, add_zero] at hw
    exact mul_le_mul_of_nonneg_left (mul_le_mul_of_nonneg_left hw (by norm_num)) hm0.le)
  have hg : ∀ c : Coupling z, gravityWork (gridAccel st.mech.forces [] c.g) (st.world.bodies c.p) (st'.world.bodies c.p) = 0 := by
    intro c
    have : gridAccel (z := z) st.mech.forces [] c.g = fun _ => 0 := by funext a; simp [gridAccel]
    rw [this]
    cases st.world.bodies c.p <;> cases st'.world.bodies c.p <;> simp [gravityWork]
  simp only [hf, hg, zero_mul, mul_zero, Finset.sum_const_zero, add_zero] at this
  simpa [activeSum] using this

/-- **C136**, any number of steps. -/
theorem obstacle_run_energy_partial (gravs : List (List (Fin z.G) × ℕ)) (walls : List (Wall z K)) (hdim : dim = 2 ∨ dim = 3)
    (hforces : sv.forces = gravityList gravs ++ wallList fn' walls) (hL : ∀ c, (sv.laws c).OnlyStress) (h0 : 0 ≤ sv.alpha)
    (h1 : sv.alpha ≤ 1) (hown : OwnGrids sv.couplings) (hone : (walls.flatMap Wall.gs).Nodup) {cut : K} (n : ℕ)
    (tr : ℕ → SimState z K dim SS LS (ForceState K dim))
    (h : ∀ k < n, uslCall fn sv (tr k) = .ok (tr (k + 1))) (hr : ∀ k < n, Regular cut sv (tr k).world)
    (hrest : ∀ k < n, ∀ w ∈ walls, AtRest sv (tr k) w) :
    totalKE (tr n).world + ∑ k ∈ Finset.range n, activeSum sv.couplings (fun c =>
        absorbedWork (tr 0).dt ((tr k).world.bodies c.p) ((tr (k + 1)).world.bodies c.p)) ≤
      totalKE (tr 0).world + activeSum sv.couplings (fun c =>
        gravityWork (gridAccel (tr 0).mech.forces gravs c.g) ((tr 0).world.bodies c.p) ((tr n).world.bodies c.p)) := by
  suffices hall : ∀ m ≤ n, (tr m).dt = (tr 0).dt ∧ (tr m).mech.forces = (tr 0).mech.forces ∧
      (∀ c ∈ sv.couplings, c.skip = false → ∀ s, (tr m).world.bodies c.p = .deformable s → m = 0 ∨
        ∃ s0, (tr 0).world.bodies c.p = .deformable s0 ∧ s.mass = s0.mass) ∧
      totalKE (tr m).world + ∑ k ∈ Finset.range m, activeSum sv.couplings (fun c =>
        absorbedWork (tr 0).dt ((tr k).world.bodies c.p) ((tr (k + 1)).world.bodies c.p)) ≤
      totalKE (tr 0).world + activeSum sv.couplings (fun c =>
        gravityWork (gridAccel (tr 0).mech.forces gravs c.g) ((tr 0).world.bodies c.p) ((tr m).world.bodies c.p)) from
    (hall n le_rfl).2.2.2
  intro m
  induction m with
  | zero =>
    intro _
    refine ⟨rfl, rfl, fun _ _ _ _ _ => .inl rfl, ?_⟩
    simp only [gravityWork_self, Finset.range_zero, Finset.sum_empty, add_zero, le_add_iff_nonneg_right]
    refine le_of_eq ?_
    simp [activeSum]
  | succ m ih =>
    intro hm
    obtain ⟨i1, i2, i3, i4⟩ := ih (by omega)
    have hstep := obstacle_step_energy_partial gravs walls hdim hforces hL h0 h1 hown hone (h m (by omega)) (hr m (by omega))
      (hrest m (by omega))
    obtain ⟨grids, f, x3, x4, S⟩ := wall_stages gravs walls hdim hforces (h m (by omega)) (hr m (by omega))
    obtain ⟨hfo, hlaw⟩ := law_fold hL (tr m).dt sv.couplings x3 x4 S.law
    have hmass : ∀ c ∈ sv.couplings, c.skip = false → ∃ s s', (tr m).world.bodies c.p = .deformable s ∧
        (tr (m + 1)).world.bodies c.p = .deformable s' ∧ s'.mass = s.mass := by
      intro c hc hs
      obtain ⟨s, e1, hgc, hmp, e2⟩ := S.body c hc hs
      have hl := hlaw c.p
      rw [e2, ← S.world'] at hl
      cases hb : (tr (m + 1)).world.bodies c.p with
      | rigid _ => rw [hb] at hl; exact hl.elim
      | deformable s' =>
        rw [hb] at hl
        exact ⟨s, s', e1, rfl, hl.1⟩
    refine ⟨S.dt'.trans i1, ?_, ?_, ?_⟩
    · rw [S.mech', hfo, S.mech, i2]
    · intro c hc hs s' e'
      obtain ⟨s, s2, e1, e2, e3⟩ := hmass c hc hs
      rw [e2] at e'
      cases e'
      right
      rcases i3 c hc hs s e1 with rfl | ⟨s0, e4, e5⟩
      · exact ⟨s, e1, e3⟩
      · exact ⟨s0, e4, e3.trans e5⟩
    · rw [Finset.sum_range_succ]
      rw [i1, i2] at hstep
      have hadd : activeSum sv.couplings (fun c => gravityWork (gridAccel (tr 0).mech.forces gravs c.g) ((tr 0).world.bodies c.p)
            ((tr (m + 1)).world.bodies c.p)) =
          activeSum sv.couplings (fun c => gravityWork (gridAccel (tr 0).mech.forces gravs c.g) ((tr 0).world.bodies c.p)
            ((tr m).world.bodies c.p)) +
          activeSum sv.couplings (fun c => gravityWork (gridAccel (tr 0).mech.forces gravs c.g) ((tr m).world.bodies c.p)
            ((tr (m + 1)).world.bodies c.p)) := by
        rw [← activeSum_add]
        refine activeSum_congr _ _ _ fun c hc hs => ?_
        obtain ⟨s, s2, e1, e2, e3⟩ := hmass c hc hs
        rcases i3 c hc hs s e1 with rfl | ⟨s0, e4, e5⟩
        · rw [gravityWork_self]
          exact (zero_add _).symm
        · rw [e1, e2, e4]
          simp only [gravityWork]
          rw [← Finset.sum_add_distrib]
          refine Finset.sum_congr rfl fun p _ => ?_
          rw [e5, ← mul_add, ← Finset.sum_add_distrib]
          congr 1
          exact Finset.sum_congr rfl fun a _ => by ring
      rw [hadd]
      linarith

end
end Hydrax
