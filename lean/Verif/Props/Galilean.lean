import Verif.Props.Momentum
import Verif.Model.Sdf
import Verif.Lemmas.ExampleScene

/-!
# C94: a moving observer sees the same step

The same velocity is added to every body and every obstacle. One step of the USL solver then gives the same result carried along with
that velocity, as long as the obstacles look the same after their motion over the step; in general they do not.
-/

set_option linter.unusedSectionVars false

namespace Hydrax
open Spec

section
variable {z : Sz} {K : Type*} [Field K] [LinearOrder K] [IsStrictOrderedRing K] [FloorRing K] {dim : ℕ} {SS LS : Type*}

/-- Material points carried along: the velocity `u` is added and the position moved by `d`; nothing else changes. -/
def Spec.carried {n : ℕ} (u d : Fin dim → K) (s : MPState K dim n) : MPState K dim n :=
  { s with velocity := fun q a => s.velocity q a + u a, position := fun q a => s.position q a + d a }

/-- A body carried along. A rigid body has no velocity that the step reads. -/
def Spec.carriedBody {n : ℕ} (u d : Fin dim → K) : Body K dim n → Body K dim n
  | .deformable s => .deformable (carried u d s)
  | .rigid r => .rigid r

/-- A law that looks neither at positions nor at velocities. -/
def Spec.LawCarried (l : Law K dim LS) : Prop :=
  ∀ {n : ℕ} (u d : Fin dim → K) (s : MPState K dim n) (ls : LS) (dt : K),
    l.update (carried u d s) ls dt = (l.update s ls dt).map fun r => (carried u d r.1, r.2)

theorem libLaw_carried {law : Law K dim (LawState K)} (hl : LibLaw law) : LawCarried law := by
  intro n u d s ls dt
  cases hl with
  | elastic E nu reset => rfl
  | fluid fn pr reset =>
    cases ls <;> try rfl
    simp only [fluidLaw, carried]
    split_ifs <;> rfl
  | muI fn pr reset =>
    cases ls <;> try rfl
    simp only [muILaw, carried]
    split_ifs <;> rfl
  | dp fn pr reset => cases ls <;> rfl
  | mcc fn ops pr reset =>
    cases ls with
    | mcc pc r e => cases r <;> rfl
    | _ => rfl

/-- Obstacle states `a` and `a'` look the same to the step except that every surface point of the second moves faster by `u`. -/
structure Spec.SameLook (l : SdfLogic K dim SS) (u : Fin dim → K) (dt : K) (a a' : SS) : Prop where
  dist : ∀ x, l.dist a' x = l.dist a x
  normal : ∀ x, l.normal a' x = l.normal a x
  friction : ∀ x, l.friction a' x = l.friction a x
  velocity : ∀ x b, l.velocity a' x dt b = l.velocity a x dt b + u b

/-- Gravity and obstacles; damping is excluded, since it acts on absolute velocities. -/
inductive Spec.InertialForce : ForceHooks z K dim SS LS (ForceState K dim) → Prop
  | gravity (onGrid ps gs fIdx) : InertialForce (gravityForce onGrid ps gs fIdx)
  | sdfCollider (fn sdf gs gap base) : InertialForce (sdfColliderForce fn sdf gs gap base)

theorem InertialForce.lib {f : ForceHooks z K dim SS LS (ForceState K dim)} (h : InertialForce f) : LibForce f := by
  cases h
  · exact .gravity _ _ _ _
  · exact .sdfCollider _ _ _ _ _

/-- What is kept between the two runs on the grid. -/
structure GridGal (u : Fin dim → K) (nt : Prop) (a a' : GridArrays K dim) : Prop where
  mass : ∀ j, a'.mass j = a.mass j
  moment : ∀ j b, a'.moment j b = a.moment j b + a.mass j * u b
  force : ∀ j b, a'.force j b = a.force j b
  momentNt : nt → ∀ j b, a'.momentNt j b = a.momentNt j b + a.mass j * u b

/-- What is kept between the two runs; body `p` has been displaced by `δ p`, the grids in `nt` have been integrated. -/
structure CtxGal (u : Fin dim → K) (δ : Fin z.P → Fin dim → K) (nt : Fin z.G → Prop)
    (x x' : Ctx z K dim SS LS (ForceState K dim)) : Prop where
  bodies : ∀ p, x'.world.bodies p = carriedBody u (δ p) (x.world.bodies p)
  mech : x'.mech = x.mech
  inter : x'.cache.interactions = x.cache.interactions
  grids : ∀ g, GridGal u (nt g) (x.cache.grids g) (x'.cache.grids g)
  dists : ∀ g d j, (x'.cache.nodeGeoms g d).dists j = (x.cache.nodeGeoms g d).dists j
  normals : ∀ g d j, (x'.cache.nodeGeoms g d).normals j = (x.cache.nodeGeoms g d).normals j
  friction : ∀ g d j, (x'.cache.nodeGeoms g d).friction j = (x.cache.nodeGeoms g d).friction j
  wallVels : ∀ g d j b, (x'.cache.nodeGeoms g d).wallVels j b = (x.cache.nodeGeoms g d).wallVels j b + u b

variable {u : Fin dim → K} {δ : Fin z.P → Fin dim → K} {nt : Fin z.G → Prop} {x x' : Ctx z K dim SS LS (ForceState K dim)}

theorem CtxGal.setGrid (h : CtxGal u δ nt x x') (g : Fin z.G) {nt' : Fin z.G → Prop} {a a' : GridArrays K dim}
    (ha : GridGal u (nt' g) a a') (hnt : ∀ k, k ≠ g → nt' k → nt k) : CtxGal u δ nt' (x.setGrid g a) (x'.setGrid g a') where
  bodies := h.bodies
  mech := h.mech
  inter := h.inter
  grids k := by
    unfold Ctx.setGrid
    by_cases hk : k = g
    · subst hk; simpa using ha
    · simp only [Function.update_of_ne hk]
      exact ⟨(h.grids k).mass, (h.grids k).moment, (h.grids k).force, fun e => (h.grids k).momentNt (hnt k hk e)⟩
  dists := h.dists
  normals := h.normals
  friction := h.friction
  wallVels := h.wallVels

/-- If the first loop succeeds, so does the second, and the results correspond. -/
theorem foldE_pair {σ τ α : Type*} {R : List α → σ → τ → Prop} {f : σ → α → Except PyErr σ} {f' : τ → α → Except PyErr τ} :
    ∀ (l : List α) (s s1 : σ) (t : τ), (∀ a ∈ l, ∀ rest s s1 t, R (a :: rest) s t → f s a = .ok s1 →
      ∃ t1, f' t a = .ok t1 ∧ R rest s1 t1) → R l s t → foldE f s l = .ok s1 → ∃ t1, foldE f' t l = .ok t1 ∧ R [] s1 t1
  | [], s, s1, t, _, hR, h => by
    have : s = s1 := by simpa [foldE] using h
    exact ⟨t, rfl, this ▸ hR⟩
  | a :: l, s, s1, t, hf, hR, h => by
    obtain ⟨s2, h1, h2⟩ := foldE_cons_ok.mp h
    obtain ⟨t2, h3, h4⟩ := hf a (by simp) l s s2 t hR h1
    obtain ⟨t1, h5, h6⟩ := foldE_pair l s2 s1 t2 (fun b hb => hf b (by simp [hb])) h4 h2
    exact ⟨t1, foldE_cons_ok.mpr ⟨t2, h3, h5⟩, h6⟩

/-- As `foldE_pair` with a relation that does not depend on the position in the loop. -/
theorem foldE_pair' {σ τ α : Type*} {R : σ → τ → Prop} {f : σ → α → Except PyErr σ} {f' : τ → α → Except PyErr τ}
    {l : List α} {s s1 : σ} {t : τ} (hf : ∀ a ∈ l, ∀ s s1 t, R s t → f s a = .ok s1 → ∃ t1, f' t a = .ok t1 ∧ R s1 t1)
    (hR : R s t) (h : foldE f s l = .ok s1) : ∃ t1, foldE f' t l = .ok t1 ∧ R s1 t1 :=
  foldE_pair (R := fun _ => R) l s s1 t (fun a ha _ => hf a ha) hR h

theorem p2gBody_gal {n w : ℕ} (c : InteractionCache K n w) (d : Fin dim → K) (s : MPState K dim n) {a a' : GridArrays K dim}
    {q : Prop} (h : GridGal u q a a') : GridGal u False (p2gBody c s a) (p2gBody c (carried u d s) a') where
  mass j := by simp only [p2gBody, h.mass, carried]
  moment j b := by
    simp only [p2gBody, h.moment, carried, scatterAdd]
    have : ∀ i, (if c.nodeHash i = j then c.shapeVal i * c.cpicMask i * s.mass (c.pointId i) *
        (s.velocity (c.pointId i) b + u b) else 0) =
        (if c.nodeHash i = j then c.shapeVal i * c.cpicMask i * s.mass (c.pointId i) * s.velocity (c.pointId i) b else 0) +
        (if c.nodeHash i = j then c.shapeVal i * c.cpicMask i * s.mass (c.pointId i) else 0) * u b := by
      intro i; split_ifs <;> ring
    simp only [this, Finset.sum_add_distrib, ← Finset.sum_mul]
    ring
  force j b := rfl
  momentNt hf := hf.elim

theorem p2gCoupling_gal (c : Coupling z) {y : Ctx z K dim SS LS (ForceState K dim)} (h : CtxGal u δ (fun _ => False) x x')
    (hy : p2gCoupling x c = .ok y) : ∃ y', p2gCoupling x' c = .ok y' ∧ CtxGal u δ (fun _ => False) y y' := by
  unfold p2gCoupling at hy ⊢
  rw [h.inter, h.bodies]
  split_ifs at hy ⊢ with hs
  · exact ⟨x', rfl, (Except.ok.inj hy) ▸ h⟩
  · cases hi : x.cache.interactions c.p c.g with
    | none => rw [hi] at hy; simp at hy
    | some v =>
      rw [hi] at hy
      cases hb : x.world.bodies c.p with
      | rigid r => rw [hb] at hy; simp at hy
      | deformable s =>
        rw [hb] at hy
        simp only [carriedBody]
        have ev : (carried u (δ c.p) s).volScalar = s.volScalar := rfl
        rw [ev]
        simp only at hy
        split_ifs at hy ⊢
        obtain rfl := Except.ok.inj hy
        exact ⟨_, rfl, h.setGrid c.g (p2gBody_gal v.2 _ s (h.grids c.g)) fun _ _ e => e⟩

theorem mapGrids_gal {f f' : GridArrays K dim → GridArrays K dim}
    (hf : ∀ g a a', GridGal u (nt g) a a' → GridGal u (nt g) (f a) (f' a')) (gs : List (Fin z.G))
    (h : CtxGal u δ nt x x') : CtxGal u δ nt (mapGrids f gs x) (mapGrids f' gs x') := by
  unfold mapGrids
  induction gs generalizing x x' with
  | nil => exact h
  | cons g gs ih => exact ih (h.setGrid g (hf g _ _ (h.grids g)) fun _ _ e => e)

/-- Hooks before the scatter. -/
theorem inertial_pre {f : ForceHooks z K dim SS LS (ForceState K dim)} (hf : InertialForce f) (h : CtxGal u δ nt x x') (dt t : K)
    {y : Ctx z K dim SS LS (ForceState K dim)} (hy : f.preP2g x dt t = .ok y) :
    ∃ y', f.preP2g x' dt t = .ok y' ∧ CtxGal u δ nt y y' := by
  cases hf with
  | sdfCollider fn sdf gs gap base =>
    obtain rfl := Except.ok.inj (show Except.ok x = Except.ok y from hy)
    exact ⟨x', rfl, h⟩
  | gravity onGrid ps gs fIdx =>
    simp only [gravityForce] at hy ⊢
    rw [h.mech]
    split_ifs at hy ⊢
    · obtain rfl := Except.ok.inj hy; exact ⟨x', rfl, h⟩
    · cases e : x.mech.forces[fIdx]? with
      | none => rw [e] at hy; simp at hy
      | some v => rw [e] at hy; obtain rfl := Except.ok.inj hy; exact ⟨x', rfl, h⟩
    · obtain ⟨_, -, h2⟩ := andThen_ok.mp hy
      simp at h2

theorem inertial_pre_eq {f : ForceHooks z K dim SS LS (ForceState K dim)} (hf : InertialForce f) (dt t : K)
    {y : Ctx z K dim SS LS (ForceState K dim)} (hy : f.preP2g x dt t = .ok y) : y = x := by
  cases hf with
  | sdfCollider fn sdf gs gap base => exact (Except.ok.inj (show Except.ok x = Except.ok y from hy)).symm
  | gravity onGrid ps gs fIdx =>
    simp only [gravityForce] at hy
    split_ifs at hy
    · exact (Except.ok.inj hy).symm
    · cases e : x.mech.forces[fIdx]? with
      | none => rw [e] at hy; simp at hy
      | some v => rw [e] at hy; exact (Except.ok.inj hy).symm
    · obtain ⟨_, -, h2⟩ := andThen_ok.mp hy
      simp at h2

theorem inertial_forces_mass {f : ForceHooks z K dim SS LS (ForceState K dim)} (hf : InertialForce f) (dt t : K)
    {y : Ctx z K dim SS LS (ForceState K dim)} (hy : f.gridForces x dt t = .ok y) (g : Fin z.G) :
    (y.cache.grids g).mass = (x.cache.grids g).mass := by
  cases hf with
  | sdfCollider fn sdf gs gap base => obtain rfl := Except.ok.inj (show Except.ok x = Except.ok y from hy); rfl
  | gravity onGrid ps gs fIdx =>
    simp only [gravityForce] at hy
    split_ifs at hy
    · obtain rfl := Except.ok.inj hy; rfl
    · obtain ⟨v, h1, h2⟩ := andThen_ok.mp hy
      obtain rfl := Except.ok.inj h2
      rw [mapGrids_gravity]

theorem inertial_forces {f : ForceHooks z K dim SS LS (ForceState K dim)} (hf : InertialForce f) (h : CtxGal u δ nt x x') (dt t : K)
    {y : Ctx z K dim SS LS (ForceState K dim)} (hy : f.gridForces x dt t = .ok y) :
    ∃ y', f.gridForces x' dt t = .ok y' ∧ CtxGal u δ nt y y' := by
  cases hf with
  | sdfCollider fn sdf gs gap base =>
    obtain rfl := Except.ok.inj (show Except.ok x = Except.ok y from hy)
    exact ⟨x', rfl, h⟩
  | gravity onGrid ps gs fIdx =>
    simp only [gravityForce] at hy ⊢
    rw [h.mech]
    split_ifs at hy ⊢
    · obtain rfl := Except.ok.inj hy; exact ⟨x', rfl, h⟩
    · obtain ⟨v, h1, h2⟩ := andThen_ok.mp hy
      obtain rfl := Except.ok.inj h2
      refine ⟨_, by rw [h1]; rfl, mapGrids_gal (fun g a a' ha => ?_) gs h⟩
      exact ⟨ha.mass, ha.moment, fun j b => by simp only [gravityGrid, ha.mass, ha.force], ha.momentNt⟩

/-- Adding the same velocity to the node and the wall adds it to the result of the contact. -/
theorem frictionalContact_gal (sqrt : K → K) (v w n : Fin dim → K) (dist mu dt gap bias : K) (b : Fin dim) :
    frictionalContact sqrt (fun a => v a + u a) dist n (fun a => w a + u a) mu dt gap bias b =
      frictionalContact sqrt v dist n w mu dt gap bias b + u b := by
  unfold frictionalContact
  simp only [add_sub_add_right_eq_sub]
  have e : ∀ k : K, (fun a => v a + u a + k * n a - (w a + u a)) = fun a => v a + k * n a - w a := by
    intro k; funext a; ring
  simp only [e]
  have e2 : ∀ (k : K) (a : Fin dim), v a + u a + k * n a - (w a + u a) = v a + k * n a - w a := fun k a => by ring
  simp only [e2]
  ring

theorem collideNode_gal (sqrt : K → K) (gap dist : K) (v n w : Fin dim → K) (mu dt : K) (b : Fin dim) :
    collideNode sqrt gap dist (fun a => v a + u a) n (fun a => w a + u a) mu dt b = collideNode sqrt gap dist v n w mu dt b + u b := by
  unfold collideNode
  simp only [add_sub_add_right_eq_sub]
  split_ifs
  · exact frictionalContact_gal sqrt v w n dist mu dt gap 0 b
  · rfl

/-- Every node of a grid is empty or heavier than the cutoff. -/
def Heavy (a : GridArrays K dim) : Prop := ∀ j, a.mass j = 0 ∨ uslCutoff < a.mass j

theorem cutoff_small : (1 : K) / 10 ^ 14 < uslCutoff := by
  unfold uslCutoff
  exact one_div_lt_one_div_of_lt (by positivity) (pow_lt_pow_right₀ (by norm_num) (by norm_num))

theorem uslCutoff_pos : (0 : K) < uslCutoff := by unfold uslCutoff; positivity

theorem collideGrid_gal (sqrt : K → K) (gap base dt : K) (geo geo' : Geom K dim ℕ) {a a' : GridArrays K dim} {q : Prop}
    (hd : ∀ j, geo'.dists j = geo.dists j) (hn : ∀ j, geo'.normals j = geo.normals j) (hf : ∀ j, geo'.friction j = geo.friction j)
    (hw : ∀ j b, geo'.wallVels j b = geo.wallVels j b + u b) (hh : Heavy a)
    (h : GridGal u q a a') : GridGal u q (collideGrid sqrt gap base dt geo a) (collideGrid sqrt gap base dt geo' a') where
  mass := h.mass
  moment := h.moment
  force := h.force
  momentNt hq j b := by
    have hnt := h.momentNt hq j
    simp only [collideGrid, h.mass, hd, hn, hf]
    rcases hh j with h0 | h0
    · rw [h0]; simp
    · have hm : a.mass j > 1 / 10 ^ 14 := cutoff_small.trans h0
      have hpos : 0 < a.mass j := uslCutoff_pos.trans h0
      have e : (fun c => a'.momentNt j c * (if a.mass j > 1 / 10 ^ 14 then 1 / a.mass j else 0)) =
          fun c => a.momentNt j c * (if a.mass j > 1 / 10 ^ 14 then 1 / a.mass j else 0) + u c := by
        funext c
        rw [hnt, if_pos hm]
        field_simp
      have ew : geo'.wallVels j = fun c => geo.wallVels j c + u c := funext (hw j)
      rw [e, ew, collideNode_gal]
      ring

theorem inertial_moments {f : ForceHooks z K dim SS LS (ForceState K dim)} (hf : InertialForce f) {m : Fin z.G → ℕ → K}
    (hm : ∀ g j, m g j = 0 ∨ uslCutoff < m g j) (h : CtxGal u δ nt x x') (hx : ∀ g, (x.cache.grids g).mass = m g) (dt t : K)
    {y : Ctx z K dim SS LS (ForceState K dim)} (hy : f.gridMoments x dt t = .ok y) :
    ∃ y', f.gridMoments x' dt t = .ok y' ∧ CtxGal u δ nt y y' ∧ ∀ g, (y.cache.grids g).mass = m g := by
  cases hf with
  | gravity onGrid ps gs fIdx =>
    obtain rfl := Except.ok.inj (show Except.ok x = Except.ok y from hy)
    exact ⟨x', rfl, h, hx⟩
  | sdfCollider fn sdf gs gap base =>
    cases sdf with
    | none =>
      obtain rfl := Except.ok.inj (show Except.ok x = Except.ok y from hy)
      exact ⟨x', rfl, h, hx⟩
    | some d =>
      simp only [sdfColliderForce] at hy ⊢
      obtain rfl := Except.ok.inj hy
      refine ⟨_, rfl, ?_⟩
      clear hy
      induction gs generalizing x x' with
      | nil => exact ⟨h, hx⟩
      | cons g gs ih =>
        simp only [List.foldl_cons]
        refine ih (h.setGrid g (collideGrid_gal fn.sqrt gap base dt _ _ (h.dists g d) (h.normals g d) (h.friction g d)
          (h.wallVels g d) (fun j => by rw [hx]; exact hm g j) (h.grids g)) fun _ _ e => e) ?_
        intro k
        unfold Ctx.setGrid
        by_cases hk : k = g
        · subst hk
          simp only [Function.update_self]
          exact hx k
        · simp only [Function.update_of_ne hk]
          exact hx k

theorem integrateBody_gal (dt : K) {a a' : GridArrays K dim} {q q' : Prop} (h : GridGal u q a a') :
    GridGal u q' (integrateBody dt a) (integrateBody dt a') where
  mass := h.mass
  moment := h.moment
  force := h.force
  momentNt _ j b := by simp only [integrateBody, h.moment, h.force]; ring

/-- The gather: velocities gain `u`, positions `dt u`, everything else is the same. -/
theorem g2pBody_gal {n w N : ℕ} {c : InteractionCache K n w} (hc : GoodCache c N) (alpha dt : K) (d : Fin dim → K)
    (gh gh' : Option (Fin n → Fin dim → K)) (s : MPState K dim n) {a a' : GridArrays K dim} (h : GridGal u True a a')
    (hv : ∀ i, c.shapeVal i ≠ 0 → uslCutoff < a.mass (c.nodeHash i)) :
    g2pBody alpha dt c gh' a' (carried u d s) = carried u (fun b => d b + dt * u b) (g2pBody alpha dt c gh a s) := by
  have hgh : ∀ (g : Option (Fin n → Fin dim → K)) (v : Fin (n * w) → Fin dim → K), ghostBlend c g v = v := by
    intro g v
    cases g with
    | none => rfl
    | some g => funext i b; simp [ghostBlend, hc.mask_one]
  have hnv : ∀ {m mom : K} (b : Fin dim), uslCutoff < m → nodeVel uslCutoff m (mom + m * u b) = nodeVel uslCutoff m mom + u b := by
    intro m mom b hm
    have : m ≠ 0 := (uslCutoff_pos.trans hm).ne'
    unfold nodeVel
    rw [if_pos hm, if_pos hm, if_pos hm]
    field_simp
  have h1 : ∀ i b, c.shapeVal i * nodeVel uslCutoff (a'.mass (c.nodeHash i)) (a'.momentNt (c.nodeHash i) b) =
      c.shapeVal i * nodeVel uslCutoff (a.mass (c.nodeHash i)) (a.momentNt (c.nodeHash i) b) + u b * c.shapeVal i := by
    intro i b
    by_cases h0 : c.shapeVal i = 0
    · rw [h0]; simp
    · rw [h.mass, h.momentNt trivial, hnv b (hv i h0)]; ring
  have h2 : ∀ i b, c.shapeVal i * nodeVel uslCutoff (a'.mass (c.nodeHash i)) (a'.moment (c.nodeHash i) b) =
      c.shapeVal i * nodeVel uslCutoff (a.mass (c.nodeHash i)) (a.moment (c.nodeHash i) b) + u b * c.shapeVal i := by
    intro i b
    by_cases h0 : c.shapeVal i = 0
    · rw [h0]; simp
    · rw [h.mass, h.moment, hnv b (hv i h0)]; ring
  have h3 : ∀ i j k, c.shapeGrad i j * -(pad3 (fun b => nodeVel uslCutoff (a'.mass (c.nodeHash i)) (a'.momentNt (c.nodeHash i) b)) k) =
      c.shapeGrad i j * -(pad3 (fun b => nodeVel uslCutoff (a.mass (c.nodeHash i)) (a.momentNt (c.nodeHash i) b)) k) +
        -(pad3 u k) * c.shapeGrad i j := by
    intro i j k
    by_cases h0 : c.shapeVal i = 0
    · rw [hc.grad_zero i h0 j]; simp
    · have e : pad3 (fun b => nodeVel uslCutoff (a'.mass (c.nodeHash i)) (a'.momentNt (c.nodeHash i) b)) k =
          pad3 (fun b => nodeVel uslCutoff (a.mass (c.nodeHash i)) (a.momentNt (c.nodeHash i) b)) k + pad3 u k := by
        unfold pad3
        split_ifs
        · beta_reduce
          rw [h.mass, h.momentNt trivial, hnv _ (hv i h0)]
        · simp
      rw [e]; ring
  have p1 : ∀ p b, pointSum c (fun i => c.shapeVal i * nodeVel uslCutoff (a'.mass (c.nodeHash i)) (a'.momentNt (c.nodeHash i) b)) p =
      pointSum c (fun i => c.shapeVal i * nodeVel uslCutoff (a.mass (c.nodeHash i)) (a.momentNt (c.nodeHash i) b)) p + u b := by
    intro p b
    simp only [h1, pointSum_add, pointSum_mul, hc.sum_val, mul_one]
  have p2 : ∀ p b, pointSum c (fun i => c.shapeVal i * (nodeVel uslCutoff (a'.mass (c.nodeHash i)) (a'.momentNt (c.nodeHash i) b) -
        nodeVel uslCutoff (a'.mass (c.nodeHash i)) (a'.moment (c.nodeHash i) b))) p =
      pointSum c (fun i => c.shapeVal i * (nodeVel uslCutoff (a.mass (c.nodeHash i)) (a.momentNt (c.nodeHash i) b) -
        nodeVel uslCutoff (a.mass (c.nodeHash i)) (a.moment (c.nodeHash i) b))) p := by
    intro p b
    congr 1; funext i
    rw [mul_sub, mul_sub, h1, h2]; ring
  have p3 : ∀ p j k, pointSum c (fun i => c.shapeGrad i j * -(pad3 (fun b => nodeVel uslCutoff (a'.mass (c.nodeHash i))
        (a'.momentNt (c.nodeHash i) b)) k)) p =
      pointSum c (fun i => c.shapeGrad i j * -(pad3 (fun b => nodeVel uslCutoff (a.mass (c.nodeHash i))
        (a.momentNt (c.nodeHash i) b)) k)) p := by
    intro p j k
    simp only [h3, pointSum_add, pointSum_mul, hc.sum_grad, mul_zero, add_zero]
  unfold g2pBody
  simp only [hgh, p1, p2, p3, carried]
  simp only [MPState.mk.injEq, and_true]
  constructor
  · funext p b; ring
  · funext p b; ring

/-- Number of active couplings of body `p` in a list. -/
def activeCount (l : List (Coupling z)) (p : Fin z.P) : ℕ := l.countP fun c => !c.skip && decide (c.p = p)

theorem activeCount_cons (c : Coupling z) (l : List (Coupling z)) (p : Fin z.P) :
    activeCount (c :: l) p = activeCount l p + if c.skip = false ∧ c.p = p then 1 else 0 := by
  unfold activeCount
  rw [List.countP_cons]
  simp

theorem activeCount_one {l : List (Coupling z)} (hn : (l.map (·.p)).Nodup) {c : Coupling z} (hc : c ∈ l) (hs : c.skip = false) :
    activeCount l c.p = 1 := by
  induction l with
  | nil => simp at hc
  | cons a l ih =>
    rw [List.map_cons, List.nodup_cons] at hn
    rw [activeCount_cons]
    rcases List.mem_cons.mp hc with rfl | hc
    · have : activeCount l c.p = 0 := by
        unfold activeCount
        rw [List.countP_eq_zero]
        intro b hb
        have : b.p ≠ c.p := fun e => hn.1 (e ▸ List.mem_map_of_mem hb)
        simp [this]
      rw [this, if_pos ⟨hs, rfl⟩]
    · have : a.p ≠ c.p := fun e => hn.1 (e ▸ List.mem_map_of_mem hc)
      rw [ih hn.2 hc, if_neg (by simp [this])]

theorem activeCount_zero {l : List (Coupling z)} {p : Fin z.P} (h : ∀ c ∈ l, c.skip = false → c.p ≠ p) : activeCount l p = 0 := by
  unfold activeCount
  rw [List.countP_eq_zero]
  intro c hc
  have := h c hc
  cases hs : c.skip <;> simp_all

theorem CtxGal.setBody {y y' : Ctx z K dim SS LS (ForceState K dim)} (h : CtxGal u δ nt y y') (p : Fin z.P)
    {δ' : Fin z.P → Fin dim → K} {b b' : Body K dim (z.np p)} (hb : b' = carriedBody u (δ' p) b) (hδ : ∀ q, q ≠ p → δ' q = δ q) :
    CtxGal u δ' nt (y.setBody p b) (y'.setBody p b') where
  bodies q := by
    simp only [Ctx.setBody, World.setBody]
    by_cases hq : q = p
    · subst hq; simp only [Function.update_self]; exact hb
    · simp only [Function.update_of_ne hq]; rw [hδ q hq]; exact h.bodies q
  mech := h.mech
  inter := h.inter
  grids := h.grids
  dists := h.dists
  normals := h.normals
  friction := h.friction
  wallVels := h.wallVels

theorem g2pCoupling_gal (alpha dt : K) (c : Coupling z) {y : Ctx z K dim SS LS (ForceState K dim)} (h : CtxGal u δ nt x x')
    (hnt : c.skip = false → nt c.g) {N : ℕ}
    (hc : c.skip = false → ∀ v, x.cache.interactions c.p c.g = some v → GoodCache v.2 N ∧
      ∀ i, v.2.shapeVal i ≠ 0 → uslCutoff < (x.cache.grids c.g).mass (v.2.nodeHash i))
    (hy : g2pCoupling alpha dt x c = .ok y) : ∃ y', g2pCoupling alpha dt x' c = .ok y' ∧ y.cache = x.cache ∧
      CtxGal u (fun p b => δ p b + if c.skip = false ∧ c.p = p then dt * u b else 0) nt y y' := by
  unfold g2pCoupling at hy ⊢
  rw [h.inter, h.bodies]
  cases hs : c.skip with
  | true =>
    rw [if_pos hs] at hy
    obtain rfl := Except.ok.inj hy
    refine ⟨x', by simp, rfl, ?_⟩
    simpa using h
  | false =>
    rw [if_neg (by simp [hs])] at hy
    rw [if_neg (by simp)]
    cases hi : x.cache.interactions c.p c.g with
    | none => rw [hi] at hy; simp at hy
    | some v =>
      rw [hi] at hy
      obtain ⟨hg, hv⟩ := hc hs v hi
      cases hb : x.world.bodies c.p with
      | rigid r => rw [hb] at hy; simp at hy
      | deformable s =>
        rw [hb] at hy
        simp only [carriedBody]
        simp only at hy
        split_ifs at hy ⊢
        obtain rfl := Except.ok.inj hy
        refine ⟨_, rfl, rfl, h.setBody c.p ?_ ?_⟩
        · have hgal := h.grids c.g
          rw [g2pBody_gal hg alpha dt (δ c.p) (ghostVelocity x c.p s) _ s
            ⟨hgal.mass, hgal.moment, hgal.force, fun _ => hgal.momentNt (hnt hs)⟩ hv]
          simp [carriedBody]
        · intro q hq
          funext b
          simp [Ne.symm hq]

theorem lawCoupling_gal (fn : MathFns K) {laws : Fin z.C → Law K dim LS} (hl : ∀ c, LawCarried (laws c)) (dt : K) (c : Coupling z)
    {y : Ctx z K dim SS LS (ForceState K dim)} (h : CtxGal u δ nt x x')
    (hy : lawCoupling fn laws dt x c = .ok y) : ∃ y', lawCoupling fn laws dt x' c = .ok y' ∧ CtxGal u δ nt y y' := by
  unfold lawCoupling at hy ⊢
  rw [h.bodies, h.mech]
  split_ifs at hy ⊢
  · obtain rfl := Except.ok.inj hy
    exact ⟨x', rfl, h⟩
  · cases hb : x.world.bodies c.p with
    | rigid r => rw [hb] at hy; simp at hy
    | deformable s =>
      rw [hb] at hy
      obtain ⟨r, h1, h2⟩ := andThen_ok.mp hy
      obtain rfl := Except.ok.inj h2
      simp only [carriedBody]
      rw [hl c.c u (δ c.p) s, h1]
      have hb := h.setBody (δ' := δ) c.p (b := .deformable (removeShear fn (laws c.c).requiresFReset r.1))
        (b' := .deformable (removeShear fn (laws c.c).requiresFReset (carried u (δ c.p) r.1))) (by
          unfold removeShear carriedBody carried
          split_ifs <;> rfl) (fun _ _ => rfl)
      refine ⟨_, rfl, ?_⟩
      exact ⟨hb.bodies, rfl, hb.inter, hb.grids, hb.dists, hb.normals, hb.friction, hb.wallVels⟩

/-- Some active coupling in the list uses the grid. -/
def usesGrid (l : List (Coupling z)) (g : Fin z.G) : Prop := ∃ c ∈ l, c.skip = false ∧ c.g = g

theorem integrate_gal (dt : K) (cs : List (Coupling z)) {y : Ctx z K dim SS LS (ForceState K dim)}
    (h : CtxGal u δ (fun _ => False) x x') (hy : foldE (integrateCoupling dt) x cs = .ok y) :
    ∃ y', foldE (integrateCoupling dt) x' cs = .ok y' ∧ CtxGal u δ (usesGrid cs) y y' := by
  have key := foldE_pair (R := fun rest (a b : Ctx z K dim SS LS (ForceState K dim)) =>
      CtxGal u δ (fun g => usesGrid cs g ∧ ¬usesGrid rest g) a b) (f := integrateCoupling dt) (f' := integrateCoupling dt)
    cs x y x' (by
      intro c _ rest a b a' hR hb
      unfold integrateCoupling at hb ⊢
      split_ifs at hb ⊢ with hs
      · obtain rfl := Except.ok.inj hb
        refine ⟨a', rfl, ?_⟩
        have e : usesGrid (c :: rest) = usesGrid rest := by
          funext g
          simp [usesGrid, hs]
        rwa [e] at hR
      · obtain rfl := Except.ok.inj hb
        refine ⟨_, rfl, hR.setGrid c.g (integrateBody_gal dt (hR.grids c.g)) ?_⟩
        rintro k hk ⟨h1, h2⟩
        refine ⟨h1, ?_⟩
        rintro ⟨b, hb, hb2, hb3⟩
        rcases List.mem_cons.mp hb with rfl | hb
        · exact hk hb3.symm
        · exact h2 ⟨b, hb, hb2, hb3⟩) (by
      have e : (fun g => usesGrid cs g ∧ ¬usesGrid cs g) = fun _ => False := by funext g; simp
      rw [e]; exact h) hy
  obtain ⟨y', h1, h2⟩ := key
  refine ⟨y', h1, ?_⟩
  have e : (fun g => usesGrid cs g ∧ ¬usesGrid ([] : List (Coupling z)) g) = usesGrid cs := by funext g; simp [usesGrid]
  rwa [e] at h2

theorem g2p_gal (alpha dt : K) (cs : List (Coupling z)) {y : Ctx z K dim SS LS (ForceState K dim)}
    (h : CtxGal u (fun _ => 0) (usesGrid cs) x x') {N : Fin z.G → ℕ}
    (hc : ∀ c ∈ cs, c.skip = false → ∀ v, x.cache.interactions c.p c.g = some v → GoodCache v.2 (N c.g) ∧
      ∀ i, v.2.shapeVal i ≠ 0 → uslCutoff < (x.cache.grids c.g).mass (v.2.nodeHash i))
    (hy : foldE (g2pCoupling alpha dt) x cs = .ok y) :
    ∃ y', foldE (g2pCoupling alpha dt) x' cs = .ok y' ∧
      CtxGal u (fun p b => (activeCount cs p : K) * (dt * u b)) (usesGrid cs) y y' := by
  have key := foldE_pair (R := fun rest (a b : Ctx z K dim SS LS (ForceState K dim)) => a.cache = x.cache ∧
      CtxGal u (fun p b => ((activeCount cs p : K) - activeCount rest p) * (dt * u b)) (usesGrid cs) a b)
    (f := g2pCoupling alpha dt) (f' := g2pCoupling alpha dt) cs x y x' (by
      rintro c hcs rest a b a' ⟨hca, hR⟩ hb
      obtain ⟨b', e1, e2, e3⟩ := g2pCoupling_gal alpha dt c hR (fun hs => ⟨c, hcs, hs, rfl⟩) (N := N c.g)
        (by rw [hca]; exact hc c hcs) hb
      refine ⟨b', e1, e2.trans hca, ?_⟩
      convert e3 using 3 with p b
      rw [activeCount_cons]
      split_ifs <;> push_cast <;> ring) ⟨rfl, by simp only [sub_self, zero_mul]; exact h⟩ hy
  obtain ⟨y', h1, -, h2⟩ := key
  refine ⟨y', h1, ?_⟩
  simpa [activeCount] using h2

/-- The scene `st'` is the scene `st` with the velocity `u` added to every body, and with obstacles that, moved to the end of the step,
look as they did but move faster by `u`. -/
structure Spec.Boosted (sv : Solver z K dim SS LS (ForceState K dim)) (u : Fin dim → K)
    (st st' : SimState z K dim SS LS (ForceState K dim)) : Prop where
  bodies : ∀ p, st'.world.bodies p = carriedBody u 0 (st.world.bodies p)
  sdfs : ∀ i, SameLook (sv.sdfs i) u st.dt ((sv.sdfs i).updateKin (st.world.sdfs i) st.dt)
    ((sv.sdfs i).updateKin (st'.world.sdfs i) st.dt)
  mech : st'.mech = st.mech
  dt : st'.dt = st.dt
  time : st'.time = st.time
  step : st'.step = st.step

/-- **C94, one step.** If a step succeeds, the step of the boosted scene succeeds; the bodies on the grid have the same state, moved
further by `dt u` and faster by `u`; bodies that take no part keep their place; the law states are the same. -/
theorem usl_galilean_partial {fn : MathFns K} {sv : Solver z K dim SS LS (ForceState K dim)} (hdim : dim = 2 ∨ dim = 3)
    (hforces : ∀ f ∈ sv.forces, InertialForce f) (hlaws : ∀ c, LawCarried (sv.laws c))
    {st st' st1 : SimState z K dim SS LS (ForceState K dim)} (h : uslCall fn sv st = .ok st')
    (hr : Regular uslCutoff sv st.world) (u : Fin dim → K) (hb : Boosted sv u st st1) :
    ∃ st1', uslCall fn sv st1 = .ok st1' ∧ st1'.mech = st'.mech ∧ st1'.time = st'.time ∧ st1'.step = st'.step ∧
      (∀ c ∈ sv.couplings, c.skip = false → st1'.world.bodies c.p = carriedBody u (fun a => st.dt * u a) (st'.world.bodies c.p)) ∧
      ∀ p, (∀ c ∈ sv.couplings, c.skip = false → c.p ≠ p) → st1'.world.bodies p = carriedBody u 0 (st'.world.bodies p) := by
  have hlib : ∀ f ∈ sv.forces, LibForce f := fun f hf => InertialForce.lib (hforces f hf)
  obtain ⟨wm, x1, x2, x3, x4, h1, h2, h3, h4, h5, rfl⟩ := callWith_ok h
  have hk := kinematicUpdate_lib hlib _ _ _ _ _ h1
  -- kinematics of the boosted scene
  have hk' : ∃ wm', kinematicUpdate sv st1.world st1.mech st1.dt st1.time = .ok wm' ∧ wm'.1.bodies = st1.world.bodies ∧
      wm'.2 = st1.mech ∧ wm'.1.sdfs = (fun i => (sv.sdfs i).updateKin (st1.world.sdfs i) st1.dt) := by
    unfold kinematicUpdate
    have e : foldE (fun (wm : World z K dim SS × Mech z K LS (ForceState K dim)) f => f.kinematics wm.1 wm.2 st1.dt st1.time)
        (st1.world, st1.mech) sv.forces = .ok (st1.world, st1.mech) := by
      have : ∀ l : List (ForceHooks z K dim SS LS (ForceState K dim)), (∀ f ∈ l, InertialForce f) →
          foldE (fun (wm : World z K dim SS × Mech z K LS (ForceState K dim)) f => f.kinematics wm.1 wm.2 st1.dt st1.time)
            (st1.world, st1.mech) l = .ok (st1.world, st1.mech) := by
        intro l
        induction l with
        | nil => intro _; rfl
        | cons f l ih =>
          intro hl
          refine foldE_cons_ok.mpr ⟨_, ?_, ih fun g hg => hl g (by simp [hg])⟩
          cases hl f (by simp) <;> rfl
      exact this _ hforces
    rw [e]
    exact ⟨_, rfl, rfl, rfl, rfl⟩
  obtain ⟨wm', hk1, hk2, hk3, hk4⟩ := hk'
  set w0 := resetMaterialPoints sv wm.1 with hw0
  set w0' := resetMaterialPoints sv wm'.1 with hw0'
  have hdt : st1.dt = st.dt := hb.dt
  have hbod : wm.1.bodies = st.world.bodies := hk.1
  have hbody0 : ∀ p, w0'.bodies p = carriedBody u 0 (w0.bodies p) := by
    intro p
    simp only [hw0, hw0', resetMaterialPoints, hbod, hk2, hb.bodies]
    split_ifs
    · cases st.world.bodies p <;> rfl
    · rfl
  have hpos0 : ∀ p, (w0'.bodies p).position = (w0.bodies p).position := by
    intro p
    rw [hbody0]
    cases w0.bodies p with
    | rigid r => rfl
    | deformable s =>
      show (fun q a => s.position q a + 0) = s.position
      funext q a; exact add_zero _
  have hinter : computeConnectivity sv w0' = computeConnectivity sv w0 := by
    unfold computeConnectivity
    congr 1
    funext d c
    unfold connStep
    rw [hpos0]
  have hsdf0 : ∀ i, w0.sdfs i = (sv.sdfs i).updateKin (st.world.sdfs i) st.dt := fun i => congrFun hk.2.2 i
  have hsdf0' : ∀ i, w0'.sdfs i = (sv.sdfs i).updateKin (st1.world.sdfs i) st.dt := fun i => by
    rw [← hdt]; exact congrFun hk4 i
  have c0 : CtxGal u (fun _ => 0) (fun _ => False)
      (⟨w0, wm.2, buildCache fn sv w0 st.dt⟩ : Ctx z K dim SS LS (ForceState K dim))
      ⟨w0', wm'.2, buildCache fn sv w0' st1.dt⟩ := by
    refine ⟨hbody0, ?_, ?_, ?_, ?_, ?_, ?_, ?_⟩
    · show wm'.2 = wm.2
      rw [hk3, hk.2.1, hb.mech]
    · show (buildCache fn sv w0' st1.dt).interactions = (buildCache fn sv w0 st.dt).interactions
      rw [buildCache_interactions, buildCache_interactions, hinter]
    · intro g
      exact ⟨fun _ => rfl, fun _ b => by simp [buildCache, GridArrays.new], fun _ _ => rfl, fun e => e.elim⟩
    all_goals intro g d j
    · simp only [buildCache, sdfGeom, hsdf0, hsdf0', (hb.sdfs d).dist]
    · simp only [buildCache, sdfGeom, hsdf0, hsdf0']
      exact (hb.sdfs d).normal _
    · simp only [buildCache, sdfGeom, hsdf0, hsdf0', (hb.sdfs d).friction]
    · intro b
      simp only [buildCache, sdfGeom, hsdf0, hsdf0', hdt, (hb.sdfs d).velocity]
  -- scatter
  obtain ⟨x0, h20, h21⟩ := andThen_ok.mp h2
  have hx0 : x0 = ⟨w0, wm.2, buildCache fn sv w0 st.dt⟩ :=
    foldE_inv (I := fun a => a = (⟨w0, wm.2, buildCache fn sv w0 st.dt⟩ : Ctx z K dim SS LS (ForceState K dim))) sv.forces _ x0 rfl
      (by rintro f hf s s' rfl hs; exact inertial_pre_eq (hforces f hf) _ _ hs) h20
  obtain ⟨x0', h20', c1⟩ := foldE_pair' (R := CtxGal u (fun _ => 0) (fun _ => False))
    (fun f hf a b a' hR hs => inertial_pre (hforces f hf) hR st.dt st.time hs) c0 h20
  subst hx0
  obtain ⟨x1', h21', c2⟩ := foldE_pair' (R := CtxGal u (fun _ => 0) (fun _ => False))
    (fun c _ a b a' hR hs => p2gCoupling_gal c hR hs) c1 h21
  have hl0 : HasLists sv.domains (⟨w0, wm.2, buildCache fn sv w0 st.dt⟩ : Ctx z K dim SS LS (ForceState K dim))
      sv.couplings := by
    intro c hc
    change (buildCache fn sv w0 st.dt).interactions c.p c.g = _
    rw [buildCache_interactions]
    exact computeConnectivity_self sv w0 hr.single c hc
  have s1 := p2g_fold_sums sv.domains sv.couplings _ x1 hl0 h21
  have w1 := same_of_fold sv.couplings _ x1 (fun c _ x x' hx => p2gCoupling_world x x' c hx) h21
  have hnm := fun p => reset_nodeMass sv wm.1 p
  rw [← hw0, hbod] at hnm
  have hmass1 : ∀ g j, (x1.cache.grids g).mass j =
      gridSum sv.couplings g (fun c => (st.world.bodies c.p).nodeMass c.ker (sv.domains c.g) j) := by
    intro g j
    rw [(s1 g j).1]
    simp only [hnm]
    simp [buildCache, GridArrays.new]
  have hgood : ∀ c ∈ sv.couplings, c.skip = false → ∀ s, st.world.bodies c.p = .deformable s →
      GoodCache (compute c.ker (sv.domains c.g) s.position) (sv.domains c.g).numCells := by
    intro c hc hs s hb
    obtain ⟨o, e, hh, pad, hpos, hpad, hd, hx⟩ := hr.box c hc hs
    rw [hb] at hx
    rw [hd]
    exact goodCache_of_inBox hdim c.ker o e hh hpos pad hpad s.position hx
  have hnonneg : ∀ j, ∀ c ∈ sv.couplings, c.skip = false → 0 ≤ (st.world.bodies c.p).nodeMass c.ker (sv.domains c.g) j := by
    intro j c hc hs
    cases hbb : st.world.bodies c.p with
    | rigid r => exact le_rfl
    | deformable s => exact nodeMass_nonneg (hgood c hc hs s hbb) s.mass (fun q => (hr.mass_pos c hc hs s hbb q).le) j
  have hsum_nonneg : ∀ g j, 0 ≤ gridSum sv.couplings g (fun c => (st.world.bodies c.p).nodeMass c.ker (sv.domains c.g) j) := by
    intro g j
    refine List.sum_nonneg fun x hx => ?_
    obtain ⟨c, hc, rfl⟩ := List.mem_map.mp hx
    split_ifs with hh
    · exact hnonneg j c hc hh.1
    · exact le_rfl
  have hheavy : ∀ g j, (x1.cache.grids g).mass j = 0 ∨ uslCutoff < (x1.cache.grids g).mass j := by
    intro g j
    rw [hmass1]
    rcases (hsum_nonneg g j).eq_or_lt with e | e
    · exact .inl e.symm
    · exact .inr (hr.cutoff g j e)
  -- forces, integration, contact
  obtain ⟨y1, h31, h3⟩ := andThen_ok.mp h3
  obtain ⟨y2, h32, h33⟩ := andThen_ok.mp h3
  obtain ⟨y1', h31', c3⟩ := foldE_pair' (R := CtxGal u (fun _ => 0) (fun _ => False))
    (fun f hf a b a' hR hs => inertial_forces (hforces f hf) hR st.dt st.time hs) c2 h31
  have m1 : ∀ g, (y1.cache.grids g).mass = (x1.cache.grids g).mass :=
    foldE_inv (I := fun a : Ctx z K dim SS LS (ForceState K dim) => ∀ g, (a.cache.grids g).mass = (x1.cache.grids g).mass)
      sv.forces _ y1 (fun _ => rfl) (fun f hf s s' hs hh g => (inertial_forces_mass (hforces f hf) _ _ hh g).trans (hs g)) h31
  obtain ⟨y2', h32', c4⟩ := integrate_gal st.dt sv.couplings c3 h32
  have m2 : ∀ g, (y2.cache.grids g).mass = (x1.cache.grids g).mass := fun g =>
    (integrate_fold st.dt sv.couplings y1 y2 h32 g).1.trans (m1 g)
  obtain ⟨x2', h33', c5, m3⟩ := foldE_pair' (R := fun (a b : Ctx z K dim SS LS (ForceState K dim)) =>
      CtxGal u (fun _ => 0) (usesGrid sv.couplings) a b ∧ ∀ g, (a.cache.grids g).mass = (x1.cache.grids g).mass)
    (fun f hf a b a' hR hs => inertial_moments (hforces f hf) hheavy hR.1 hR.2 st.dt st.time hs) ⟨c4, m2⟩ h33
  -- gather
  have wy1 : y1.world = x1.world ∧ y1.mech = x1.mech ∧ y1.cache.interactions = x1.cache.interactions ∧
      y1.cache.mpGeoms = x1.cache.mpGeoms := same_of_fold sv.forces x1 y1
    (fun f hfm x x' hx => libForce_gridForces (hlib f hfm) x x' _ _ hx) h31
  have wy2 := same_of_fold sv.couplings y1 y2
    (fun c _ x x' hx => integrateCoupling_world st.dt x x' c hx) h32
  have wy3 : x2.world = y2.world ∧ x2.mech = y2.mech ∧ x2.cache.interactions = y2.cache.interactions ∧
      x2.cache.mpGeoms = y2.cache.mpGeoms := same_of_fold sv.forces y2 x2
    (fun f hfm x x' hx => libForce_gridMoments (hlib f hfm) x x' _ _ hx) h33
  obtain ⟨x3', h4', c6⟩ := g2p_gal sv.alpha st.dt sv.couplings (N := fun g => (sv.domains g).numCells) c5 (by
    intro c hc hs v hv
    rw [wy3.2.2.1, wy2.2.2.1, wy1.2.2.1, w1.2.2.1, hl0 c hc] at hv
    obtain rfl := Option.some.inj hv
    cases hbb : st.world.bodies c.p with
    | rigid r =>
      exfalso
      have hw : x2.world.bodies c.p = .rigid r := by
        rw [wy3.1, wy2.1, wy1.1, w1.1]
        show w0.bodies c.p = _
        simp only [hw0, resetMaterialPoints, hbod, hbb, ite_self]
      obtain ⟨-, -, gb, -⟩ := g2p_fold sv.alpha st.dt sv.domains sv.couplings hr.single x2 x3 (by
        intro b hb'
        rw [wy3.2.2.1, wy2.2.2.1, wy1.2.2.1, w1.2.2.1, wy3.1, wy2.1, wy1.1, w1.1]
        exact hl0 b hb') h4
      obtain ⟨s, e, -⟩ := gb c hc hs
      rw [hw] at e
      cases e
    | deformable s =>
      have hp : (w0.bodies c.p).position = s.position := by
        rw [(hnm c.p c.ker (sv.domains c.g)).2.2, hbb]; rfl
      have hg := hgood c hc hs s hbb
      change GoodCache (compute c.ker (sv.domains c.g) (w0.bodies c.p).position) _ ∧
        ∀ i, (compute c.ker (sv.domains c.g) (w0.bodies c.p).position).shapeVal i ≠ 0 → _ <
          (x2.cache.grids c.g).mass ((compute c.ker (sv.domains c.g) (w0.bodies c.p).position).nodeHash i)
      rw [hp, m3]
      refine ⟨hg, fun i hi => ?_⟩
      refine (hheavy c.g _).resolve_left fun e => hi ?_
      rw [hmass1] at e
      have hz := gridSum_term_zero sv.couplings c.g _ (hnonneg _) e c hc hs rfl
      rw [hbb] at hz
      exact val_zero_of_nodeMass hg s.mass (hr.mass_pos c hc hs s hbb) _ hz i rfl) h4
  -- laws
  obtain ⟨x4', h5', c7⟩ := foldE_pair' (R := CtxGal u (fun p b => (activeCount sv.couplings p : K) * (st.dt * u b)) (usesGrid sv.couplings))
    (fun c _ a b a' hR hs => lawCoupling_gal fn hlaws st.dt c hR hs) c6 h5
  refine ⟨{ st1 with world := x4'.world, mech := x4'.mech, step := st1.step + 1, time := st1.time + st1.dt }, ?_, c7.mech, ?_, ?_, ?_, ?_⟩
  · unfold uslCall callWith
    rw [hk1, andThen, ← hw0', hdt, hb.time]
    refine andThen_ok.mpr ⟨x1', ?_, andThen_ok.mpr ⟨x2', ?_, andThen_ok.mpr ⟨x3', h4', andThen_ok.mpr ⟨x4', h5', rfl⟩⟩⟩⟩
    · have := h20'
      rw [hdt] at this
      exact andThen_ok.mpr ⟨x0', this, h21'⟩
    · exact andThen_ok.mpr ⟨y1', h31', andThen_ok.mpr ⟨y2', h32', h33'⟩⟩
  · show st1.time + st1.dt = st.time + st.dt
    rw [hdt, hb.time]
  · show st1.step + 1 = st.step + 1
    rw [hb.step]
  · intro c hc hs
    have := c7.bodies c.p
    rw [activeCount_one hr.single hc hs] at this
    simpa using this
  · intro p hp
    have := c7.bodies p
    rw [activeCount_zero hp] at this
    simp only [Nat.cast_zero, zero_mul] at this
    exact this

/-! ### Obstacles -/

/-- An obstacle with the velocity `u` added. -/
def Spec.boostedObstacle (u : Fin dim → K) (s : SdfState K dim) : SdfState K dim := { s with velocity := fun a => s.velocity a + u a }

theorem rotInv_sub (fn : MathFns K) : (dim : ℕ) → (s : SdfState K dim) → (v w : Fin dim → K) →
    (rotInv fn dim s fun a => v a - w a) = fun a => rotInv fn dim s v a - rotInv fn dim s w a
  | 0, _, _, _ => rfl
  | 1, _, _, _ => rfl
  | 2, s, v, w => by
    funext a
    simp only [rotInv, rot2Inv]
    fin_cases a <;> simp <;> ring
  | 3, s, v, w => by
    funext a
    simp only [rotInv, quatRotate, cross3]
    fin_cases a <;> simp <;> ring
  | _ + 4, _, _, _ => rfl

theorem rotInv_congr (fn : MathFns K) : (dim : ℕ) → (s s' : SdfState K dim) → s'.angle = s.angle → s'.quat = s.quat →
    rotInv fn dim s' = rotInv fn dim s
  | 0, _, _, _, _ => rfl
  | 1, _, _, _, _ => rfl
  | 2, s, s', h, _ => by funext v; simp only [rotInv, h]
  | 3, s, s', _, h => by funext v; simp only [rotInv, h]
  | _ + 4, _, _, _, _ => rfl

/-- A plane that does not rotate looks the same after a motion along itself. -/
theorem plane_sameLook (fn : MathFns K) (grad : ((Fin dim → K) → K) → (Fin dim → K) → Fin dim → K) (n : Fin dim → K) (mu : K)
    (s : SdfState K dim) (h1 : s.omega = 0) (h3 : s.omega3 = 0) (u : Fin dim → K) (dt : K)
    (hu : dotv (rotInv fn dim (updateKin fn s dt) u) n = 0) :
    SameLook (baseSdf fn grad (planeDist n) fun _ => mu) u dt ((baseSdf fn grad (planeDist n) fun _ => mu).updateKin s dt)
      ((baseSdf fn grad (planeDist n) fun _ => mu).updateKin (boostedObstacle u s) dt) := by
  have hcom : ∀ a, (updateKin fn (boostedObstacle u s) dt).com a = (updateKin fn s dt).com a + dt * u a := by
    intro a
    unfold updateKin boostedObstacle
    split_ifs <;> simp only <;> ring
  have hrot : rotInv fn dim (updateKin fn (boostedObstacle u s) dt) = rotInv fn dim (updateKin fn s dt) := by
    refine rotInv_congr fn dim _ _ ?_ ?_ <;> (unfold updateKin boostedObstacle; split_ifs <;> rfl)
  have hdu : dotv (rotInv fn dim (updateKin fn s dt) fun a => dt * u a) n = 0 := by
    have e : ∀ k : K, ∀ (dim : ℕ) (s : SdfState K dim) (v : Fin dim → K), (rotInv fn dim s fun a => k * v a) = fun a => k * rotInv fn dim s v a := by
      intro k dim s v
      match dim, s, v with
      | 0, _, _ => rfl
      | 1, _, _ => rfl
      | 2, s, v => funext a; simp only [rotInv, rot2Inv]; fin_cases a <;> simp <;> ring
      | 3, s, v => funext a; simp only [rotInv, quatRotate, cross3]; fin_cases a <;> simp <;> ring
      | _ + 4, _, _ => rfl
    rw [e]
    unfold dotv at hu ⊢
    simp only [mul_assoc, ← Finset.mul_sum]
    rw [hu, mul_zero]
  have hd : ∀ x, planeDist n (toLocal fn (updateKin fn (boostedObstacle u s) dt) x) = planeDist n (toLocal fn (updateKin fn s dt) x) := by
    intro x
    unfold toLocal planeDist
    rw [hrot]
    have : (fun a => x a - (updateKin fn (boostedObstacle u s) dt).com a) =
        fun a => (x a - (updateKin fn s dt).com a) - dt * u a := by funext a; rw [hcom]; ring
    rw [this, rotInv_sub]
    have e : dotv (fun a => rotInv fn dim (updateKin fn s dt) (fun a => x a - (updateKin fn s dt).com a) a -
        rotInv fn dim (updateKin fn s dt) (fun a => dt * u a) a) n =
        dotv (rotInv fn dim (updateKin fn s dt) fun a => x a - (updateKin fn s dt).com a) n -
        dotv (rotInv fn dim (updateKin fn s dt) fun a => dt * u a) n := by
      unfold dotv
      rw [← Finset.sum_sub_distrib]
      exact Finset.sum_congr rfl fun a _ => by ring
    rw [e, hdu, sub_zero]
  refine ⟨hd, ?_, fun _ => rfl, ?_⟩
  · intro x
    exact congrArg (fun f => autoNormal fn.sqrt grad f x) (funext hd)
  · intro x b
    have hs : ∀ (dim : ℕ) (s : SdfState K dim) (r : Fin dim → K) (b), s.omega = 0 → s.omega3 = 0 → spinVel dim s r b = 0 := by
      intro dim s r b h1 h3
      match dim, s, r, b with
      | 0, _, _, _ => rfl
      | 1, _, _, _ => rfl
      | 2, s, r, b => simp only [spinVel, h1]; fin_cases b <;> simp
      | 3, s, r, b => simp only [spinVel, h3, cross3]; fin_cases b <;> simp
      | _ + 4, _, _, _ => rfl
    show sdfVelocity (updateKin fn (boostedObstacle u s) dt) x b = sdfVelocity (updateKin fn s dt) x b + u b
    unfold sdfVelocity
    rw [hs, hs]
    · unfold updateKin boostedObstacle
      split_ifs <;> simp
    all_goals (unfold updateKin; split_ifs <;> first | exact h1 | exact h3)

end

/-! ### Examples -/

/-- A scene with the velocity `u` added to all bodies and obstacles. -/
def Spec.boostScene {z : Sz} {K LS : Type*} [Field K] [LinearOrder K] {dim : ℕ} (u : Fin dim → K)
    (st : SimState z K dim (SdfState K dim) LS (ForceState K dim)) : SimState z K dim (SdfState K dim) LS (ForceState K dim) :=
  { st with world := { bodies := fun p => carriedBody u 0 (st.world.bodies p)
                       sdfs := fun i => boostedObstacle u (st.world.sdfs i) } }

/-- One body of two points, one obstacle. -/
abbrev floorSz : Sz := { P := 1, G := 1, C := 1, S := 1, D := 1, np := fun _ => 2 }

/-- An elastic body above a floor with friction. -/
def floorSolver : Solver floorSz ℚ 2 (SdfState ℚ 2) (LawState ℚ) (ForceState ℚ 2) :=
  { alpha := 99 / 100
    domains := fun _ => GridDomain.create (fun _ => 0) (fun _ => 1) (1 / 2) 2
    couplings := [{ ker := .linear, p := (0 : Fin 1), g := (0 : Fin 1), c := (0 : Fin 1), s := (0 : Fin 1), skip := false }]
    laws := fun _ => elasticLaw 1000 (1 / 4) false
    forces := [gravityForce true [] [(0 : Fin 1)] 0, sdfColliderForce ratFns (some (0 : Fin 1)) [(0 : Fin 1)] 0 1]
    sdfs := fun _ => baseSdf ratFns (fun _ _ => ![0, 1]) (planeDist ![0, 1]) fun _ => 1 / 2
    sharpness := 10 }

/-- Two points sinking towards the floor `y = 0`, which is at rest. -/
def floorState : SimState floorSz ℚ 2 (SdfState ℚ 2) (LawState ℚ) (ForceState ℚ 2) :=
  { world := { bodies := fun _ => .deformable (MPState.create
                { position := ![![1 / 4, 3 / 4], ![5 / 8, 7 / 8]]
                  velocity := some fun _ => ![1, -1]
                  mass := some fun _ => 1
                  volume := some fun _ => 1 / 4 })
               sdfs := fun _ => SdfState.create fun _ => 0 }
    mech := { laws := fun _ => .elastic fun _ => 0, solvers := fun _ _ => 0, forces := [.gravity ![0, -10]] }
    time := 0
    step := 0
    dt := 1 / 100 }

/-- The two points of `floorState` meet the conditions of `usl_galilean_partial`. -/
theorem floor_regular : Regular uslCutoff floorSolver floorState.world where
  single := by simp [floorSolver]
  box := by
    intro c hc _
    obtain rfl : c = _ := by simpa [floorSolver] using hc
    refine ⟨fun _ => 0, fun _ => 1, 1 / 2, 2, by norm_num, by norm_num, rfl, ?_⟩
    show ∀ q : Fin 2, InBox _ _ ((floorState.world.bodies (0 : Fin 1)).position q)
    intro q d
    fin_cases q <;> fin_cases d <;> decide +kernel
  mass_pos := by
    intro c hc _ s hs
    obtain rfl : c = _ := by simpa [floorSolver] using hc
    have hs : floorState.world.bodies (0 : Fin 1) = .deformable s := hs
    cases hs
    exact fun _ => by simp [MPState.create]
  cutoff := by
    intro g j
    obtain rfl : g = (0 : Fin 1) := Subsingleton.elim _ _
    exact (exRegular (cut := uslCutoff) (reset := false)
      (w := ⟨fun _ => floorState.world.bodies (0 : Fin 1), Fin.elim0⟩) (by decide +kernel)).cutoff (0 : Fin 1) j

/-- **C94 along a floor.** The sinking body above the floor, seen by an observer moving along the floor: contact and friction are the
same. -/
example : ∃ st1 st1', uslCall ratFns floorSolver floorState = .ok st1 ∧
    uslCall ratFns floorSolver (boostScene ![3, 0] floorState) = .ok st1' ∧
    st1'.world.bodies (0 : Fin 1) = carriedBody ![3, 0] (fun a => 1 / 100 * ![3, 0] a) (st1.world.bodies (0 : Fin 1)) := by
  have hok : (uslCall ratFns floorSolver floorState).isOk = true := by decide +kernel
  cases h : uslCall ratFns floorSolver floorState with
  | error e => rw [h] at hok; cases hok
  | ok st1 =>
    obtain ⟨st1', h1, -, -, -, h2, -⟩ := usl_galilean_partial (.inl rfl) (by
        intro f hf
        simp only [floorSolver, List.mem_cons, List.not_mem_nil, or_false] at hf
        rcases hf with rfl | rfl
        · exact .gravity _ _ _ _
        · exact .sdfCollider _ _ _ _ _) (fun _ => libLaw_carried (.elastic _ _ _)) h floor_regular ![3, 0]
      (st1 := boostScene ![3, 0] floorState)
      ⟨fun _ => rfl, fun i => plane_sameLook _ _ _ _ _ rfl rfl _ _ (by
        obtain rfl : i = (0 : Fin 1) := Subsingleton.elim _ _
        decide +kernel), rfl, rfl, rfl, rfl⟩
    exact ⟨st1, st1', rfl, h1, h2 _ (by simp [floorSolver]; rfl) rfl⟩

/-- **C94 refuted towards a floor.** With the same velocity towards the floor added to the body and to the floor, the floor has moved
away from the row of nodes it touched before the points are looked at: without the boost the body is slowed down (its velocity relative
to the floor is above -3/5), with the boost it falls freely. -/
theorem floor_not_galilean :
    probe (uslCall ratFns floorSolver floorState) (0 : Fin 1) (fun s => if s.velocity (0 : Fin 2) 1 > -3 / 5 then 1 else 0) = some 1 ∧
    probe (uslCall ratFns floorSolver (boostScene ![0, -1] floorState)) (0 : Fin 1)
      (fun s => s.velocity (0 : Fin 2) 1 - -1) = some (-11 / 10) := by
  constructor <;> decide +kernel

/-- The scene `exState` with a common velocity added. -/
def boostedEx : SimState exSz ℚ 2 Unit (LawState ℚ) (ForceState ℚ 2) :=
  { exState with world := { bodies := fun p => carriedBody (![0, -1] : Fin 2 → ℚ) 0 (exState.world.bodies p), sdfs := Fin.elim0 } }

/-- **C94 refuted over two steps.** After the first step the boosted points sit at other places relative to the grid, so that the second
step smooths their velocities differently: there is no obstacle in this scene. -/
theorem two_steps_not_galilean :
    probe (runSteps (uslCall ratFns (exSolver .linear false)) 2 exState) (0 : Fin 1) (fun s => s.velocity (0 : Fin 2) 1) ≠
    probe (runSteps (uslCall ratFns (exSolver .linear false)) 2 boostedEx) (0 : Fin 1) (fun s => s.velocity (0 : Fin 2) 1 - -1) := by
  decide +kernel

end Hydrax
