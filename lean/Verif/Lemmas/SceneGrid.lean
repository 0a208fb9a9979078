import Verif.Lemmas.SceneEst
import Verif.Lemmas.Transfer
import Mathlib.Algebra.BigOperators.Group.List.Lemmas

/-!
# Explicit form of the stages of a USL call on a whole scene (helper lemmas)
-/

set_option linter.unusedSectionVars false

namespace Hydrax

section
variable {z : Sz} {K : Type*} [Field K] [LinearOrder K] [FloorRing K] {dim : ℕ} {SS LS : Type*}
  {fn : MathFns K} {sv : Solver z K dim SS LS (ForceState K dim)}

/-! ### Connectivity -/

/-- With one coupling per body, every coupling finds its own interaction list. -/
theorem computeConnectivity_self {FS : Type*} (sv : Solver z K dim SS LS FS) (w : World z K dim SS)
    (hn : (sv.couplings.map (·.p)).Nodup) (c : Coupling z) (hc : c ∈ sv.couplings) :
    computeConnectivity sv w c.p c.g =
      some ⟨c.ker, compute c.ker (sv.domains c.g) (w.bodies c.p).position⟩ := by
  unfold computeConnectivity
  have frame : ∀ (cs : List (Coupling z)) (d : Inter z K dim) (p : Fin z.P), p ∉ cs.map (·.p) →
      cs.foldl (connStep sv w) d p = d p := by
    intro cs
    induction cs with
    | nil => intro d p _; rfl
    | cons b cs ih =>
      intro d p hp
      rw [List.foldl_cons, ih _ _ (fun h => hp (by simp only [List.map_cons, List.mem_cons]; exact .inr h))]
      unfold connStep Inter.set
      rw [Function.update_of_ne]
      rintro rfl
      exact hp (by simp)
  have key : ∀ (cs : List (Coupling z)) (d : Inter z K dim), (cs.map (·.p)).Nodup → c ∈ cs →
      cs.foldl (connStep sv w) d c.p c.g =
        some ⟨c.ker, compute c.ker (sv.domains c.g) (w.bodies c.p).position⟩ := by
    intro cs
    induction cs with
    | nil => intro d _ h; simp at h
    | cons b cs ih =>
      intro d hnd hm
      rw [List.map_cons, List.nodup_cons] at hnd
      rw [List.foldl_cons]
      rcases List.mem_cons.mp hm with rfl | hm
      · rw [frame cs _ _ hnd.1]
        unfold connStep Inter.set
        rw [Function.update_self, Function.update_self]
      · exact ih _ hnd.2 hm
  exact key _ _ hn hc

/-! ### Grid sums -/

/-- Nodal mass contributed by a body. -/
def Body.nodeMass {n : ℕ} (ker : Kernel) (dom : GridDomain K dim) : Body K dim n → ℕ → K
  | .deformable s, j => Hydrax.nodeMass (compute ker dom s.position) s.mass j
  | .rigid _, _ => 0

/-- Nodal momentum contributed by a body. -/
def Body.nodeMoment {n : ℕ} (ker : Kernel) (dom : GridDomain K dim) : Body K dim n → ℕ → Fin dim → K
  | .deformable s, j, a =>
    let ic := compute ker dom s.position
    scatterAdd ic.nodeHash (fun i => ic.shapeVal i * s.mass (ic.pointId i) * s.velocity (ic.pointId i) a) j
  | .rigid _, _, _ => 0

/-- Sum over the active couplings of grid `g`. -/
def gridSum (cs : List (Coupling z)) (g : Fin z.G) (f : Coupling z → K) : K :=
  (cs.map fun c => if c.skip = false ∧ c.g = g then f c else 0).sum

theorem gridSum_cons (c : Coupling z) (cs : List (Coupling z)) (g : Fin z.G) (f : Coupling z → K) :
    gridSum (c :: cs) g f = (if c.skip = false ∧ c.g = g then f c else 0) + gridSum cs g f := by
  simp [gridSum]

theorem gridSum_perm {cs cs' : List (Coupling z)} (h : cs.Perm cs') (g : Fin z.G) (f : Coupling z → K) :
    gridSum cs g f = gridSum cs' g f := (h.map _).sum_eq

theorem gridSum_mul (cs : List (Coupling z)) (g : Fin z.G) (f : Coupling z → K) (q : K) :
    gridSum cs g f * q = gridSum cs g fun c => f c * q := by
  induction cs with
  | nil => simp [gridSum]
  | cons c cs ih => rw [gridSum_cons, gridSum_cons, add_mul, ih, ite_mul, zero_mul]

theorem gridSum_sum {ι : Type*} (cs : List (Coupling z)) (g : Fin z.G) (s : Finset ι) (f : ι → Coupling z → K) :
    ∑ j ∈ s, gridSum cs g (f j) = gridSum cs g fun c => ∑ j ∈ s, f j c := by
  induction cs with
  | nil => simp [gridSum]
  | cons c cs ih =>
    simp only [gridSum_cons, Finset.sum_add_distrib, ih]
    congr 1
    split_ifs
    · rfl
    · simp

theorem gridSum_congr (cs : List (Coupling z)) (g : Fin z.G) (f f' : Coupling z → K)
    (h : ∀ c ∈ cs, c.skip = false → c.g = g → f c = f' c) : gridSum cs g f = gridSum cs g f' := by
  unfold gridSum
  congr 1
  refine List.map_congr_left fun c hc => ?_
  split_ifs with h1
  · exact h c hc h1.1 h1.2
  · rfl

theorem gridSum_add (cs : List (Coupling z)) (g : Fin z.G) (f f' : Coupling z → K) :
    gridSum cs g (fun c => f c + f' c) = gridSum cs g f + gridSum cs g f' := by
  induction cs with
  | nil => simp [gridSum]
  | cons c cs ih =>
    rw [gridSum_cons, gridSum_cons, gridSum_cons, ih]
    split_ifs <;> ring

/-- Sum over all active couplings. -/
def activeSum (cs : List (Coupling z)) (f : Coupling z → K) : K :=
  (cs.map fun c => if c.skip = false then f c else 0).sum

theorem activeSum_cons (c : Coupling z) (cs : List (Coupling z)) (f : Coupling z → K) :
    activeSum (c :: cs) f = (if c.skip = false then f c else 0) + activeSum cs f := by
  simp [activeSum]

/-- Regrouping the couplings by grid. -/
theorem sum_gridSum (cs : List (Coupling z)) (f : Fin z.G → Coupling z → K) :
    ∑ g, gridSum cs g (f g) = activeSum cs fun c => f c.g c := by
  induction cs with
  | nil => simp [gridSum, activeSum]
  | cons c cs ih =>
    simp only [gridSum_cons, activeSum_cons, Finset.sum_add_distrib, ih]
    congr 1
    by_cases hs : c.skip = false
    · simp [hs]
    · simp [hs]

theorem activeSum_congr (cs : List (Coupling z)) (f f' : Coupling z → K)
    (h : ∀ c ∈ cs, c.skip = false → f c = f' c) : activeSum cs f = activeSum cs f' := by
  unfold activeSum
  congr 1
  refine List.map_congr_left fun c hc => ?_
  split_ifs with h1
  · exact h c hc h1
  · rfl

theorem activeSum_add (cs : List (Coupling z)) (f f' : Coupling z → K) :
    activeSum cs (fun c => f c + f' c) = activeSum cs f + activeSum cs f' := by
  induction cs with
  | nil => simp [activeSum]
  | cons c cs ih =>
    rw [activeSum_cons, activeSum_cons, activeSum_cons, ih]
    split_ifs <;> ring

theorem activeSum_mul (cs : List (Coupling z)) (f : Coupling z → K) (q : K) :
    q * activeSum cs f = activeSum cs fun c => q * f c := by
  induction cs with
  | nil => simp [activeSum]
  | cons c cs ih => rw [activeSum_cons, activeSum_cons, mul_add, ih, mul_ite, mul_zero]

/-- A sum over bodies of something that vanishes for bodies without an active coupling. -/
theorem sum_bodies (cs : List (Coupling z)) (hn : (cs.map (·.p)).Nodup) (D : Fin z.P → K)
    (h0 : ∀ p, (∀ c ∈ cs, c.skip = false → c.p ≠ p) → D p = 0) : ∑ p, D p = activeSum cs fun c => D c.p := by
  induction cs generalizing D with
  | nil =>
    simp only [activeSum, List.map_nil, List.sum_nil]
    exact Finset.sum_eq_zero fun p _ => h0 p (by simp)
  | cons c cs ih =>
    rw [List.map_cons, List.nodup_cons] at hn
    rw [activeSum_cons]
    have h1 := ih hn.2 (Function.update D c.p 0) (by
      intro p hp
      by_cases hpc : p = c.p
      · subst hpc; rw [Function.update_self]
      · rw [Function.update_of_ne hpc]
        apply h0
        intro b hb hs
        rcases List.mem_cons.mp hb with rfl | hb
        · exact fun h => hpc h.symm
        · exact hp b hb hs)
    have h2 : (activeSum cs fun b => Function.update D c.p 0 b.p) = activeSum cs fun b => D b.p := by
      apply activeSum_congr
      intro b hb _
      rw [Function.update_of_ne]
      intro h
      exact hn.1 (h ▸ List.mem_map_of_mem hb)
    rw [← h2, ← h1]
    have h3 : D c.p = if c.skip = false then D c.p else 0 := by
      split_ifs with hs
      · rfl
      · refine h0 c.p ?_
        intro b hb hsb h
        rcases List.mem_cons.mp hb with rfl | hb
        · exact hs hsb
        · exact hn.1 (h ▸ List.mem_map_of_mem hb)
    rw [← h3]
    rw [← Finset.add_sum_erase _ D (Finset.mem_univ c.p),
      ← Finset.add_sum_erase _ (Function.update D c.p 0) (Finset.mem_univ c.p), Function.update_self, zero_add]
    congr 1
    refine Finset.sum_congr rfl fun p hp => ?_
    rw [Function.update_of_ne (Finset.ne_of_mem_erase hp)]

end

section
variable {z : Sz} {K : Type*} [Field K] [LinearOrder K] [IsStrictOrderedRing K] [FloorRing K] {dim : ℕ} {SS LS : Type*}
  {fn : MathFns K} {sv : Solver z K dim SS LS (ForceState K dim)}

/-! ### Particle to grid -/

/-- The interaction lists needed are present. -/
def HasLists (dom : Fin z.G → GridDomain K dim) (x : Ctx z K dim SS LS (ForceState K dim)) (cs : List (Coupling z)) :
    Prop :=
  ∀ c ∈ cs, x.cache.interactions c.p c.g =
    some ⟨c.ker, compute c.ker (dom c.g) (x.world.bodies c.p).position⟩

theorem p2gCoupling_ok {x x' : Ctx z K dim SS LS (ForceState K dim)} {c : Coupling z} (hs : c.skip = false)
    (h : p2gCoupling x c = .ok x') {ker ic} (hic : x.cache.interactions c.p c.g = some ⟨ker, ic⟩) :
    ∃ s, x.world.bodies c.p = .deformable s ∧ x' = x.setGrid c.g (p2gBody ic s (x.cache.grids c.g)) := by
  unfold p2gCoupling at h
  rw [if_neg (by simp [hs]), hic] at h
  simp only at h
  split at h
  · exact absurd h (by simp)
  · rename_i s hb
    split_ifs at h
    exact ⟨s, hb, (Except.ok.inj h).symm⟩

/-- Mass and momentum after the transfer are sums over the couplings of the grid. -/
theorem p2g_fold_sums (dom : Fin z.G → GridDomain K dim) (cs : List (Coupling z))
    (x x' : Ctx z K dim SS LS (ForceState K dim)) (hl : HasLists dom x cs) (h : foldE p2gCoupling x cs = .ok x')
    (g : Fin z.G) (j : ℕ) :
    (x'.cache.grids g).mass j = (x.cache.grids g).mass j +
      gridSum cs g (fun c => (x.world.bodies c.p).nodeMass c.ker (dom c.g) j) ∧
    ∀ a, (x'.cache.grids g).moment j a = (x.cache.grids g).moment j a +
      gridSum cs g (fun c => (x.world.bodies c.p).nodeMoment c.ker (dom c.g) j a) := by
  induction cs generalizing x with
  | nil =>
    have : x = x' := by simpa [foldE] using h
    subst this
    simp [gridSum]
  | cons c cs ih =>
    obtain ⟨x1, h1, h2⟩ := foldE_cons_ok.mp h
    have hw := p2gCoupling_world x x1 c h1
    have ih' := ih x1 (by
      intro b hb
      rw [hw.2.2.1, hw.1]
      exact hl b (by simp [hb])) h2
    rw [hw.1] at ih'
    rw [ih'.1]
    simp only [gridSum_cons]
    cases hs : c.skip with
    | true =>
      have : x1 = x := by
        unfold p2gCoupling at h1
        rw [if_pos hs] at h1
        exact (Except.ok.inj h1).symm
      subst this
      simp only [Bool.true_eq_false, false_and, if_false, zero_add, true_and]
      exact ih'.2
    | false =>
      have hlc := hl c (by simp)
      obtain ⟨s, hb, rfl⟩ := p2gCoupling_ok hs h1 hlc
      by_cases hg : c.g = g
      · subst hg
        simp only [and_self, if_true]
        rw [show ((x.setGrid c.g (p2gBody (compute c.ker (dom c.g) (x.world.bodies c.p).position) s
          (x.cache.grids c.g))).cache.grids c.g) = p2gBody (compute c.ker (dom c.g)
            (x.world.bodies c.p).position) s (x.cache.grids c.g) from Function.update_self ..]
          at *
        have hm : (p2gBody (compute c.ker (dom c.g) (x.world.bodies c.p).position) s (x.cache.grids c.g)).mass j =
            (x.cache.grids c.g).mass j + (x.world.bodies c.p).nodeMass c.ker (dom c.g) j := by
          rw [hb]
          simp [p2gBody, Body.nodeMass, nodeMass, Body.position, compute]
        have hv : ∀ a, (p2gBody (compute c.ker (dom c.g) (x.world.bodies c.p).position) s
            (x.cache.grids c.g)).moment j a =
            (x.cache.grids c.g).moment j a + (x.world.bodies c.p).nodeMoment c.ker (dom c.g) j a := by
          intro a
          rw [hb]
          simp [p2gBody, Body.nodeMoment, Body.position, compute]
        refine ⟨by rw [hm]; ring, fun a => ?_⟩
        rw [ih'.2 a, hv a]; ring
      · have e : ((x.setGrid c.g (p2gBody (compute c.ker (dom c.g) (x.world.bodies c.p).position) s
          (x.cache.grids c.g))).cache.grids g) = x.cache.grids g := Function.update_of_ne (Ne.symm hg) _ _
        rw [e] at ih' ⊢
        simp only [hg, and_false, if_false, zero_add, true_and]
        exact ih'.2

/-- A deformable body with positive masses, no point forces and complete stencils. -/
def GoodBody {n : ℕ} (ker : Kernel) (dom : GridDomain K dim) : Body K dim n → Prop
  | .deformable s => GoodCache (compute ker dom s.position) dom.numCells ∧ (∀ p, 0 < s.mass p)
  | .rigid _ => True

/-- State of a grid after any number of transfers. -/
structure GridOk (N : ℕ) (g : GridArrays K dim) : Prop where
  mass_nonneg : ∀ j, 0 ≤ g.mass j
  empty : ∀ j, g.mass j = 0 → ∀ a, g.moment j a = 0 ∧ g.force j a = 0
  force_sum : ∀ a, ∑ j ∈ Finset.range N, g.force j a = 0

theorem p2gBody_ok {n N : ℕ} {ker : Kernel} {dom : GridDomain K dim} {s : MPState K dim n}
    (hc : GoodCache (compute ker dom s.position) N) (hm : ∀ p, 0 < s.mass p) (hf : ∀ p a, s.force p a = 0)
    (g : GridArrays K dim) (hg : GridOk N g) : GridOk N (p2gBody (compute ker dom s.position) s g) where
  mass_nonneg j := by
    rw [p2g_mass hc]
    exact add_nonneg (hg.mass_nonneg j) (nodeMass_nonneg hc _ (fun p => (hm p).le) j)
  empty j h a := by
    rw [p2g_mass hc] at h
    have h0 := nodeMass_nonneg hc s.mass (fun p => (hm p).le) j
    have h1 := hg.mass_nonneg j
    have hn : nodeMass (compute ker dom s.position) s.mass j = 0 := by linarith
    have hz := val_zero_of_nodeMass hc s.mass hm j hn
    rw [p2g_moment hc, p2g_force hc, (hg.empty j (by linarith) a).1, zero_add]
    constructor
    · exact scatterAdd_eq_zero _ _ _ fun i hi => by rw [hz i hi]; ring
    · refine scatterAdd_eq_zero _ _ _ fun i hi => ?_
      have := hc.grad_zero i (hz i hi)
      rw [hf, mul_zero, add_zero]
      unfold internTerm trunc3
      simp [this]
  force_sum a := by
    simp only [p2g_force hc]
    rw [sum_scatterAdd _ hc.hash_lt]
    simp only [hf, mul_zero, add_zero]
    exact sum_internTerm hc _ _ a

theorem p2g_fold_ok (dom : Fin z.G → GridDomain K dim) (cs : List (Coupling z))
    (x x' : Ctx z K dim SS LS (ForceState K dim)) (hl : HasLists dom x cs) (h : foldE p2gCoupling x cs = .ok x')
    (hb : ∀ c ∈ cs, c.skip = false → GoodBody c.ker (dom c.g) (x.world.bodies c.p))
    (hf : ∀ c ∈ cs, c.skip = false → ∀ s, x.world.bodies c.p = .deformable s → ∀ p a, s.force p a = 0)
    (hg : ∀ g, GridOk (dom g).numCells (x.cache.grids g)) (g : Fin z.G) :
    GridOk (dom g).numCells (x'.cache.grids g) := by
  induction cs generalizing x with
  | nil =>
    have : x = x' := by simpa [foldE] using h
    exact this ▸ hg g
  | cons c cs ih =>
    obtain ⟨x1, h1, h2⟩ := foldE_cons_ok.mp h
    have hw := p2gCoupling_world x x1 c h1
    refine ih x1 ?_ h2 ?_ ?_ ?_
    · intro b hb
      rw [hw.2.2.1, hw.1]
      exact hl b (by simp [hb])
    · intro b hb' hs
      rw [hw.1]; exact hb b (by simp [hb']) hs
    · intro b hb' hs
      rw [hw.1]; exact hf b (by simp [hb']) hs
    · cases hs : c.skip with
      | true =>
        have : x1 = x := by
          unfold p2gCoupling at h1
          rw [if_pos hs] at h1
          exact (Except.ok.inj h1).symm
        exact this ▸ hg
      | false =>
        have hlc := hl c (by simp)
        obtain ⟨s, hbs, rfl⟩ := p2gCoupling_ok hs h1 hlc
        intro g'
        by_cases hgg : g' = c.g
        · subst hgg
          rw [show ((x.setGrid c.g (p2gBody (compute c.ker (dom c.g) (x.world.bodies c.p).position) s
            (x.cache.grids c.g))).cache.grids c.g) = p2gBody (compute c.ker (dom c.g)
              (x.world.bodies c.p).position) s (x.cache.grids c.g) from Function.update_self ..]
          have hgb := hb c (by simp) hs
          rw [hbs] at hgb ⊢
          exact p2gBody_ok hgb.1 hgb.2 (hf c (by simp) hs s hbs) _ (hg c.g)
        · rw [show ((x.setGrid c.g (p2gBody (compute c.ker (dom c.g) (x.world.bodies c.p).position) s
            (x.cache.grids c.g))).cache.grids g') = x.cache.grids g' from Function.update_of_ne hgg _ _]
          exact hg g'

/-- Stress-free bodies without point forces put no forces on the grid. -/
theorem p2g_fold_stressfree (dom : Fin z.G → GridDomain K dim) (cs : List (Coupling z))
    (x x' : Ctx z K dim SS LS (ForceState K dim)) (hl : HasLists dom x cs) (h : foldE p2gCoupling x cs = .ok x')
    (hf : ∀ c ∈ cs, c.skip = false → ∀ s, x.world.bodies c.p = .deformable s → ∀ p, s.stress p = 0 ∧ ∀ a, s.force p a = 0)
    (hg : ∀ g j a, (x.cache.grids g).force j a = 0) (g : Fin z.G) (j : ℕ) (a : Fin dim) :
    (x'.cache.grids g).force j a = 0 := by
  induction cs generalizing x with
  | nil =>
    have : x = x' := by simpa [foldE] using h
    exact this ▸ hg g j a
  | cons c cs ih =>
    obtain ⟨x1, h1, h2⟩ := foldE_cons_ok.mp h
    have hw := p2gCoupling_world x x1 c h1
    refine ih x1 ?_ h2 ?_ ?_
    · intro b hb
      rw [hw.2.2.1, hw.1]
      exact hl b (by simp [hb])
    · intro b hb' hs
      rw [hw.1]; exact hf b (by simp [hb']) hs
    · cases hs : c.skip with
      | true =>
        have : x1 = x := by
          unfold p2gCoupling at h1
          rw [if_pos hs] at h1
          exact (Except.ok.inj h1).symm
        exact this ▸ hg
      | false =>
        have hlc := hl c (by simp)
        obtain ⟨s, hbs, rfl⟩ := p2gCoupling_ok hs h1 hlc
        intro g'
        by_cases hgg : g' = c.g
        · subst hgg
          rw [show ((x.setGrid c.g (p2gBody (compute c.ker (dom c.g) (x.world.bodies c.p).position) s
            (x.cache.grids c.g))).cache.grids c.g) = p2gBody (compute c.ker (dom c.g)
              (x.world.bodies c.p).position) s (x.cache.grids c.g) from Function.update_self ..]
          intro j a
          have hz := hf c (by simp) hs s hbs
          simp only [p2gBody, zero_add]
          refine scatterAdd_eq_zero _ _ _ fun i _ => ?_
          rw [(hz _).1, (hz _).2]
          simp [internTerm, trunc3]
        · rw [show ((x.setGrid c.g (p2gBody (compute c.ker (dom c.g) (x.world.bodies c.p).position) s
            (x.cache.grids c.g))).cache.grids g') = x.cache.grids g' from Function.update_of_ne hgg _ _]
          exact hg g'

/-- The nodal force of a grid with one active coupling is that of its body. -/
theorem p2g_fold_force (dom : Fin z.G → GridDomain K dim) (c : Coupling z) (s : MPState K dim (z.np c.p)) (cs : List (Coupling z))
    (x x' : Ctx z K dim SS LS (ForceState K dim)) (hl : HasLists dom x cs) (h : foldE p2gCoupling x cs = .ok x') (hs : c.skip = false)
    (hb : x.world.bodies c.p = .deformable s) (hone : ∀ b ∈ cs, b.skip = false → b.g = c.g → b = c)
    (h0 : c ∈ cs ∨ (x.cache.grids c.g).force = (p2gBody (compute c.ker (dom c.g) s.position) s GridArrays.new).force) :
    (x'.cache.grids c.g).force = (p2gBody (compute c.ker (dom c.g) s.position) s GridArrays.new).force := by
  induction cs generalizing x with
  | nil =>
    have : x = x' := by simpa [foldE] using h
    subst this
    exact h0.resolve_left (by simp)
  | cons b cs ih =>
    obtain ⟨x1, h1, h2⟩ := foldE_cons_ok.mp h
    have hw := p2gCoupling_world x x1 b h1
    refine ih x1 ?_ h2 (by rw [hw.1]; exact hb) (fun d hd => hone d (by simp [hd])) ?_
    · intro d hd
      rw [hw.2.2.1, hw.1]
      exact hl d (by simp [hd])
    · by_cases hbc : b = c
      · subst hbc
        right
        obtain ⟨t, hbt, rfl⟩ := p2gCoupling_ok hs h1 (hl b (by simp))
        rw [hb] at hbt
        cases hbt
        rw [show ((x.setGrid b.g (p2gBody (compute b.ker (dom b.g) (x.world.bodies b.p).position) s
            (x.cache.grids b.g))).cache.grids b.g) = p2gBody (compute b.ker (dom b.g)
              (x.world.bodies b.p).position) s (x.cache.grids b.g) from Function.update_self ..]
        rw [hb]
        rfl
      · rcases h0 with h0 | h0
        · exact .inl ((List.mem_cons.mp h0).resolve_left fun e => hbc e.symm)
        · right
          cases hsb : b.skip with
          | true =>
            have : x1 = x := by
              unfold p2gCoupling at h1
              rw [if_pos hsb] at h1
              exact (Except.ok.inj h1).symm
            exact this ▸ h0
          | false =>
            obtain ⟨t, hbt, rfl⟩ := p2gCoupling_ok hsb h1 (hl b (by simp))
            have hne : c.g ≠ b.g := fun e => hbc (hone b (by simp) hsb e.symm)
            rw [show ((x.setGrid b.g (p2gBody (compute b.ker (dom b.g) (x.world.bodies b.p).position) t
              (x.cache.grids b.g))).cache.grids c.g) = x.cache.grids c.g from Function.update_of_ne hne _ _]
            exact h0

/-! ### Reset -/

theorem reset_body (sv : Solver z K dim SS LS (ForceState K dim)) (w : World z K dim SS) (p : Fin z.P) :
    (resetMaterialPoints sv w).bodies p = w.bodies p ∨
      ∃ s, w.bodies p = .deformable s ∧ (resetMaterialPoints sv w).bodies p = .deformable (resetBody s) := by
  simp only [resetMaterialPoints]
  split_ifs
  · cases hb : w.bodies p with
    | deformable s => exact .inr ⟨s, rfl, rfl⟩
    | rigid s => exact .inl rfl
  · exact .inl rfl

theorem reset_active (sv : Solver z K dim SS LS (ForceState K dim)) (w : World z K dim SS) (c : Coupling z)
    (hc : c ∈ sv.couplings) (t : MPState K dim (z.np c.p))
    (h : (resetMaterialPoints sv w).bodies c.p = .deformable t) :
    ∃ s, w.bodies c.p = .deformable s ∧ t = resetBody s := by
  simp only [resetMaterialPoints] at h
  rw [if_pos (by simp only [List.any_eq_true, decide_eq_true_eq]; exact ⟨c, hc, rfl⟩)] at h
  cases hb : w.bodies c.p with
  | deformable s =>
    rw [hb] at h
    exact ⟨s, rfl, (Body.deformable.inj h).symm⟩
  | rigid s => rw [hb] at h; simp at h

theorem reset_nodeMass (sv : Solver z K dim SS LS (ForceState K dim)) (w : World z K dim SS) (p : Fin z.P)
    (ker : Kernel) (dom : GridDomain K dim) :
    ((resetMaterialPoints sv w).bodies p).nodeMass ker dom = (w.bodies p).nodeMass ker dom ∧
    ((resetMaterialPoints sv w).bodies p).nodeMoment ker dom = (w.bodies p).nodeMoment ker dom ∧
    ((resetMaterialPoints sv w).bodies p).position = (w.bodies p).position := by
  rcases reset_body sv w p with h | ⟨s, h1, h2⟩
  · rw [h]; exact ⟨rfl, rfl, rfl⟩
  · rw [h1, h2]; exact ⟨rfl, rfl, rfl⟩

/-! ### Gravity -/

/-- The acceleration that a list of gravity forces (grids, index of state) applies on grid `g`. -/
def gridAccel (fs : List (ForceState K dim)) (gravs : List (List (Fin z.G) × ℕ)) (g : Fin z.G) (a : Fin dim) : K :=
  (gravs.map fun q => (q.1.count g : K) * (match fs[q.2]? with
    | some (.gravity v) => v a
    | _ => 0)).sum

/-- Forces of the scene are gravities acting on grids. -/
def gravityList (gravs : List (List (Fin z.G) × ℕ)) : List (ForceHooks z K dim SS LS (ForceState K dim)) :=
  gravs.map fun q => gravityForce true [] q.1 q.2

theorem mapGrids_gravity (v : Fin dim → K) (gs : List (Fin z.G)) (x : Ctx z K dim SS LS (ForceState K dim))
    (g : Fin z.G) : (mapGrids (gravityGrid v) gs x).cache.grids g =
      { (x.cache.grids g) with force := fun j a => (x.cache.grids g).force j a +
          (x.cache.grids g).mass j * ((gs.count g : K) * v a) } := by
  unfold mapGrids
  induction gs generalizing x with
  | nil => simp
  | cons b gs ih =>
    rw [List.foldl_cons, ih]
    by_cases hb : g = b
    · subst hb
      simp only [Ctx.setGrid, Function.update_self, gravityGrid, List.count_cons_self]
      congr 1
      funext j a
      push_cast; ring
    · simp only [Ctx.setGrid, Function.update_of_ne hb, List.count_cons_of_ne (Ne.symm hb)]

theorem gravity_fold (gravs : List (List (Fin z.G) × ℕ)) (x x' : Ctx z K dim SS LS (ForceState K dim))
    (dt time : K) (h : runHook ForceHooks.gridForces (gravityList gravs) x dt time = .ok x') (g : Fin z.G) :
    x'.cache.grids g = { (x.cache.grids g) with
      force := fun j a => (x.cache.grids g).force j a +
        (x.cache.grids g).mass j * gridAccel x.mech.forces gravs g a } := by
  unfold runHook gravityList at h
  induction gravs generalizing x with
  | nil =>
    have : x = x' := by simpa [foldE] using h
    subst this
    simp [gridAccel]
  | cons q gravs ih =>
    obtain ⟨x1, h1, h2⟩ := foldE_cons_ok.mp h
    rw [ih x1 h2]
    simp only [gravityForce, Bool.not_true, Bool.false_eq_true, if_false] at h1
    obtain ⟨v, hv, h1⟩ := andThen_ok.mp h1
    have := Except.ok.inj h1; subst this
    rw [mapGrids_gravity, (mapGrids_world _ _ _).2.1]
    have hva : ∀ a, (match x.mech.forces[q.2]? with
      | some (ForceState.gravity v) => v a
      | _ => 0) = v a := by
      intro a
      unfold getGravity at hv
      split at hv
      · simp at hv
      · rename_i g' hg'
        rw [hg', ← Except.ok.inj hv]
      · simp at hv
    simp only [GridArrays.mk.injEq, true_and]
    funext j a
    simp only [gridAccel, List.map_cons, List.sum_cons, hva]
    ring

theorem gravityList_lib (gravs : List (List (Fin z.G) × ℕ)) :
    ∀ f ∈ (gravityList gravs : List (ForceHooks z K dim SS LS (ForceState K dim))), LibForce f := by
  intro f hf
  obtain ⟨q, -, rfl⟩ := List.mem_map.mp hf
  exact .gravity _ _ _ _

theorem gravity_pass (gravs : List (List (Fin z.G) × ℕ)) (x x' : Ctx z K dim SS LS (ForceState K dim))
    (dt time : K) : (runHook ForceHooks.preP2g (gravityList gravs) x dt time = .ok x' → x' = x) ∧
      (runHook ForceHooks.gridMoments (gravityList gravs) x dt time = .ok x' → x' = x) := by
  constructor
  all_goals
    intro h
    refine foldE_inv (I := fun y => y = x) _ x x' rfl ?_ h
    rintro f hf s s' rfl hs
    obtain ⟨q, -, rfl⟩ := List.mem_map.mp hf
    exact (Except.ok.inj hs).symm

/-! ### Grid integration -/

theorem integrate_fold (dt : K) (cs : List (Coupling z)) (x x' : Ctx z K dim SS LS (ForceState K dim))
    (h : foldE (integrateCoupling dt) x cs = .ok x') (g : Fin z.G) :
    (x'.cache.grids g).mass = (x.cache.grids g).mass ∧ (x'.cache.grids g).moment = (x.cache.grids g).moment ∧
    (x'.cache.grids g).force = (x.cache.grids g).force ∧
    ((∃ c ∈ cs, c.skip = false ∧ c.g = g) →
      (x'.cache.grids g).momentNt = fun j a => (x.cache.grids g).moment j a + (x.cache.grids g).force j a * dt) := by
  have hstep : ∀ (c : Coupling z) (y y' : Ctx z K dim SS LS (ForceState K dim)),
      integrateCoupling dt y c = .ok y' →
      (y'.cache.grids g).mass = (y.cache.grids g).mass ∧ (y'.cache.grids g).moment = (y.cache.grids g).moment ∧
      (y'.cache.grids g).force = (y.cache.grids g).force ∧
      (c.skip = false ∧ c.g = g → (y'.cache.grids g).momentNt =
        fun j a => (y.cache.grids g).moment j a + (y.cache.grids g).force j a * dt) ∧
      (¬(c.skip = false ∧ c.g = g) → (y'.cache.grids g).momentNt = (y.cache.grids g).momentNt) := by
    intro c y y' hy
    unfold integrateCoupling at hy
    cases hs : c.skip with
    | true =>
      rw [if_pos hs] at hy
      have := Except.ok.inj hy; subst this
      simp
    | false =>
      rw [if_neg (by simp [hs])] at hy
      have := Except.ok.inj hy; subst this
      by_cases hg : g = c.g
      · subst hg
        simp [Ctx.setGrid, integrateBody]
      · simp [Ctx.setGrid, Function.update_of_ne hg, Ne.symm hg]
  have frame := foldE_rel (R := fun (y y' : Ctx z K dim SS LS (ForceState K dim)) =>
      (y'.cache.grids g).mass = (y.cache.grids g).mass ∧ (y'.cache.grids g).moment = (y.cache.grids g).moment ∧
      (y'.cache.grids g).force = (y.cache.grids g).force) (fun _ => ⟨rfl, rfl, rfl⟩)
    (fun a b c h1 h2 => ⟨h2.1.trans h1.1, h2.2.1.trans h1.2.1, h2.2.2.trans h1.2.2⟩) cs x x'
    (fun c _ y y' hy => ⟨(hstep c y y' hy).1, (hstep c y y' hy).2.1, (hstep c y y' hy).2.2.1⟩) h
  refine ⟨frame.1, frame.2.1, frame.2.2, ?_⟩
  rintro ⟨c, hc, hs⟩
  have := foldE_establish' (P := fun y : Ctx z K dim SS LS (ForceState K dim) =>
      (y.cache.grids g).moment = (x.cache.grids g).moment ∧ (y.cache.grids g).force = (x.cache.grids g).force)
    (I := fun y : Ctx z K dim SS LS (ForceState K dim) => (y.cache.grids g).momentNt =
      fun j a => (x.cache.grids g).moment j a + (x.cache.grids g).force j a * dt)
    cs x x' c hc ⟨rfl, rfl⟩
    (fun b _ y y' hy hyy => ⟨(hstep b y y' hyy).2.1.trans hy.1, (hstep b y y' hyy).2.2.1.trans hy.2⟩)
    (fun y y' hy hyy => by rw [(hstep c y y' hyy).2.2.2.1 hs, hy.1, hy.2])
    (fun b _ y y' hy hI hyy => by
      by_cases hb : b.skip = false ∧ b.g = g
      · rw [(hstep b y y' hyy).2.2.2.1 hb, hy.1, hy.2]
      · rw [(hstep b y y' hyy).2.2.2.2 hb, hI]) h
  exact this.2

/-! ### Grid to particle -/

theorem compute_ghost {n : ℕ} (ker : Kernel) (dom : GridDomain K dim) (pos : Fin n → Fin dim → K)
    (alpha dt : K) (ghost : Option (Fin n → Fin dim → K)) (gr : GridArrays K dim) (s : MPState K dim n) :
    g2pBody alpha dt (compute ker dom pos) ghost gr s = g2pBody alpha dt (compute ker dom pos) none gr s := by
  have : ∀ v : Fin (n * windowSize ker dim) → Fin dim → K,
      ghostBlend (compute ker dom pos) ghost v = v := by
    intro v
    cases ghost with
    | none => rfl
    | some gh => funext i a; simp [ghostBlend, compute]
  unfold g2pBody
  simp only [this]
  rfl

/-- Each body with an active coupling is updated once, from its own previous state. -/
theorem g2p_fold (alpha dt : K) (dom : Fin z.G → GridDomain K dim) (cs : List (Coupling z))
    (hn : (cs.map (·.p)).Nodup) (x x' : Ctx z K dim SS LS (ForceState K dim)) (hl : HasLists dom x cs)
    (h : foldE (g2pCoupling alpha dt) x cs = .ok x') :
    x'.cache = x.cache ∧ x'.mech = x.mech ∧
    (∀ c ∈ cs, c.skip = false → ∃ s, x.world.bodies c.p = .deformable s ∧ x'.world.bodies c.p = .deformable
      (g2pBody alpha dt (compute c.ker (dom c.g) s.position) none (x.cache.grids c.g) s)) ∧
    ∀ p, (∀ c ∈ cs, c.skip = false → c.p ≠ p) → x'.world.bodies p = x.world.bodies p := by
  induction cs generalizing x with
  | nil =>
    have : x = x' := by simpa [foldE] using h
    subst this
    simp
  | cons c cs ih =>
    rw [List.map_cons, List.nodup_cons] at hn
    obtain ⟨x1, h1, h2⟩ := foldE_cons_ok.mp h
    cases hs : c.skip with
    | true =>
      have := g2pCoupling_skip hs h1; subst this
      obtain ⟨i1, i2, i3, i4⟩ := ih hn.2 x1 (fun b hb => hl b (by simp [hb])) h2
      refine ⟨i1, i2, ?_, fun p hp => i4 p fun b hb => hp b (by simp [hb])⟩
      intro b hb hsb
      rcases List.mem_cons.mp hb with rfl | hb
      · rw [hs] at hsb; exact absurd hsb (by simp)
      · exact i3 b hb hsb
    | false =>
      obtain ⟨ker, ic, s, hic, hb, rfl⟩ := g2pCoupling_ok hs h1
      have hlc := hl c (by simp)
      rw [hlc] at hic
      have hic := Option.some.inj hic
      have hbs : ∀ b ∈ cs, b.p ≠ c.p := fun b hb h => hn.1 (h ▸ List.mem_map_of_mem hb)
      obtain ⟨i1, i2, i3, i4⟩ := ih hn.2 _ (by
        intro b hb'
        rw [setBody_ne _ (hbs b hb')]
        exact hl b (by simp [hb'])) h2
      refine ⟨i1, i2, ?_, ?_⟩
      · intro b hb' hsb
        rcases List.mem_cons.mp hb' with rfl | hb'
        · refine ⟨s, hb, ?_⟩
          rw [i4 b.p (fun d hd _ => hbs d hd), setBody_self]
          cases hic
          rw [hb]
          rw [compute_ghost]
          rfl
        · obtain ⟨s', e1, e2⟩ := i3 b hb' hsb
          rw [setBody_ne _ (hbs b hb')] at e1
          exact ⟨s', e1, e2⟩
      · intro p hp
        rw [i4 p (fun d hd => hp d (by simp [hd])), setBody_ne]
        exact fun h => hp c (by simp) hs h.symm

/-! ### Constitutive update -/

/-- Same kinematic data. -/
def SameMotion (n : ℕ) (s s' : MPState K dim n) : Prop :=
  s'.mass = s.mass ∧ s'.velocity = s.velocity ∧ s'.position = s.position ∧ s'.L = s.L

theorem law_fold (hL : ∀ c, (sv.laws c).OnlyStress) (dt : K) (cs : List (Coupling z))
    (x x' : Ctx z K dim SS LS (ForceState K dim)) (h : foldE (lawCoupling fn sv.laws dt) x cs = .ok x') :
    x'.mech.forces = x.mech.forces ∧
    ∀ p, Body.Rel SameMotion (x.world.bodies p) (x'.world.bodies p) := by
  refine foldE_rel (R := fun (x x' : Ctx z K dim SS LS (ForceState K dim)) => x'.mech.forces = x.mech.forces ∧
      ∀ p, Body.Rel SameMotion (x.world.bodies p) (x'.world.bodies p))
    (fun _ => ⟨rfl, fun _ => Body.Rel.refl (fun _ _ => ⟨rfl, rfl, rfl, rfl⟩) _⟩)
    (fun a b c h1 h2 => ⟨h2.1.trans h1.1, fun p => (h1.2 p).trans (R := SameMotion)
      (fun n a b c h1 h2 => ⟨h2.1.trans h1.1, h2.2.1.trans h1.2.1, h2.2.2.1.trans h1.2.2.1,
        h2.2.2.2.trans h1.2.2.2⟩) (h2.2 p)⟩) cs x x' ?_ h
  intro c _ y y' hy
  cases hs : c.skip with
  | true =>
    rw [lawCoupling_skip hs hy]
    exact ⟨rfl, fun _ => Body.Rel.refl (fun _ _ => ⟨rfl, rfl, rfl, rfl⟩) _⟩
  | false =>
    obtain ⟨s, r, hb, hr, rfl⟩ := lawCoupling_ok hs hy
    refine ⟨rfl, rel_setBody (fun _ _ => ⟨rfl, rfl, rfl, rfl⟩) y c.p _ ?_⟩
    rw [hb]
    have := hL c.c s _ dt r hr
    change SameMotion _ s (removeShear fn _ r.1)
    rw [this]
    unfold removeShear
    split_ifs <;> exact ⟨rfl, rfl, rfl, rfl⟩

end
end Hydrax
