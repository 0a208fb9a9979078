import Verif.Props.SlabRun
import Verif.Props.PatchExample

/-!
# A concrete slab for C159
-/

namespace Hydrax
open Spec

/-- Two points of different mass, place and velocity under stress, in the plane. -/
def leafBody : MPState ℚ 2 2 :=
  MPState.create
    { position := fun p => if p = 0 then ![1 / 2, 1 / 2] else ![3 / 4, 1 / 4]
      velocity := some fun p => if p = 0 then ![1, 0] else ![0, 2]
      mass := some fun p => if p = 0 then 2 else 1
      volume := some fun p => if p = 0 then 1 else 1 / 2
      stress := some fun _ => !![5, 1, 0; 1, 7, 0; 0, 0, 3] }

/-- Point number `q` of space lies above this point of the plane. -/
def bookOf (q : Fin 10) : Fin 2 := ⟨q.val % 2, by omega⟩

/-- Five layers of the two points, three units thick. -/
def bookBody : MPState ℚ 3 10 :=
  MPState.create
    { position := fun q => ![leafBody.position (bookOf q) 0, leafBody.position (bookOf q) 1, ((q.val / 2 : ℕ) : ℚ) + 1 / 2]
      velocity := some fun q => ![leafBody.velocity (bookOf q) 0, leafBody.velocity (bookOf q) 1, 0]
      mass := some fun q => 3 * leafBody.mass (bookOf q)
      volume := some fun q => 3 * leafBody.volume (bookOf q)
      stress := some fun q => leafBody.stress (bookOf q) }

abbrev leafGrid : GridDomain ℚ 2 := GridDomain.create (fun _ => 0) (fun _ => 1) 1 2

abbrev bookGrid : GridDomain ℚ 3 := GridDomain.create (fun _ => 0) ![1, 1, 5] 1 2

theorem book_over : GridOver leafGrid bookGrid where
  cell := rfl
  inv := rfl
  proper := create_inv _ _ _ (by norm_num) _
  origin := by decide +kernel
  size := by decide +kernel

theorem book_coord (q : Fin 10) : cellCoord (zGrid bookGrid) (fun _ => bookBody.position q 2) = fun _ => ((q.val / 2 : ℕ) : ℚ) + 5 / 2 := by
  funext d
  have e1 : bookBody.position q 2 = ((q.val / 2 : ℕ) : ℚ) + 1 / 2 := rfl
  have e2 : (zGrid bookGrid).origin = fun _ => (-2 : ℚ) := by
    funext d
    simp [zGrid, GridDomain.create]
  have e3 : (zGrid bookGrid).cellSize = 1 := rfl
  unfold cellCoord
  rw [e1, e2, e3]
  ring

theorem book_filled : Filled (zGrid bookGrid) (fun _ => 2) (fun _ => 7) bookOf (fun _ _ => 1 / 2) (fun q _ => bookBody.position q 2) := by
  constructor
  · intro q _
    refine ⟨fun _ => ((q.val / 2 : ℕ) : ℤ) + 2, fun d => ?_⟩
    rw [book_coord]
    generalize q.val / 2 = i
    push_cast
    ring
  · intro b k hk
    have h1a : 2 ≤ k 0 := by
      by_contra h
      have : (k 0 : ℚ) ≤ 1 := by exact_mod_cast (by omega : k 0 ≤ 1)
      linarith [(hk 0).1]
    have h1b : k 0 < 7 := by
      have : (k 0 : ℚ) < 7 := by linarith [(hk 0).2]
      exact_mod_cast this
    have hb := b.isLt
    refine ⟨⟨(k 0 - 2).toNat * 2 + b.val, by omega⟩, ⟨?_, fun d => ?_⟩, ?_⟩
    · apply Fin.ext
      simp only [bookOf]
      omega
    · rw [book_coord]
      have e0 : ((k 0 - 2).toNat * 2 + b.val) / 2 = (k 0 - 2).toNat := by omega
      have c0 : (((k 0 - 2).toNat : ℕ) : ℚ) = k 0 - 2 := by
        have : (((k 0 - 2).toNat : ℕ) : ℤ) = k 0 - 2 := by omega
        exact_mod_cast congrArg (fun x : ℤ => (x : ℚ)) this
      obtain rfl : d = 0 := Subsingleton.elim _ _
      simp only [e0, c0]
      ring
    · rintro p ⟨hp1, hp⟩
      have p0 := hp 0
      rw [book_coord] at p0
      have q0 : (((p.val / 2 : ℕ) : ℤ) : ℚ) = ((k 0 - 2 : ℤ) : ℚ) := by
        generalize p.val / 2 = i at p0 ⊢
        push_cast
        linarith
      have q0 : ((p.val / 2 : ℕ) : ℤ) = k 0 - 2 := by exact_mod_cast q0
      have q1 : p.val % 2 = b.val := congrArg Fin.val hp1
      apply Fin.ext
      simp only
      omega

theorem book_slab : Slab bookGrid 2 7 3 bookOf (fun _ => 1 / 2) leafBody bookBody where
  layers := book_filled
  place q _ d := by fin_cases d <;> rfl
  velocity q _ := ⟨fun a => by fin_cases a <;> rfl, rfl⟩
  load q _ := ⟨fun a => (mul_zero (3 : ℚ)).symm, rfl⟩
  mass _ _ := rfl
  volume _ _ := rfl
  volume0 _ _ := rfl
  stress _ _ := rfl
  F _ _ := rfl
  shear _ := ⟨rfl, rfl⟩
  planar _ := rfl

/-- `slab_p2g`: a node of the middle layer collects three times the force of the node of the plane below it. -/
example : (p2gBody (compute .linear bookGrid bookBody.position) bookBody GridArrays.new).force (nodeHashOf bookGrid (nodeAbove ![2, 3] 4)) 1 =
    3 * (p2gBody (compute .linear leafGrid leafBody.position) leafBody GridArrays.new).force (nodeHashOf leafGrid ![2, 3]) 1 :=
  ((slab_p2g book_over book_slab slab_new).force ![2, 3] (by unfold isValid; decide +kernel) 4 (by decide +kernel)
    (by unfold InnerLayer; simp only [halfWidth]; norm_num)).1 1

abbrev leafSz : Sz := { P := 1, G := 1, C := 1, S := 1, D := 0, np := fun _ => 2 }
abbrev bookSz : Sz := { P := 1, G := 1, C := 1, S := 1, D := 0, np := fun _ => 10 }

def leafCoupling : Coupling leafSz := { ker := .linear, p := (0 : Fin 1), g := (0 : Fin 1), c := (0 : Fin 1), s := (0 : Fin 1), skip := false }
def bookCoupling : Coupling bookSz := { ker := .linear, p := (0 : Fin 1), g := (0 : Fin 1), c := (0 : Fin 1), s := (0 : Fin 1), skip := false }

def leafSolver : Solver leafSz ℚ 2 Unit (LawState ℚ) (ForceState ℚ 2) :=
  { alpha := 99 / 100
    domains := fun _ => leafGrid
    couplings := [leafCoupling]
    laws := fun _ => elasticLaw 1000 (1 / 4) false
    forces := [gravityForce true [] [(0 : Fin 1)] 0]
    sdfs := Fin.elim0
    sharpness := 10 }

def bookSolver : Solver bookSz ℚ 3 Unit (LawState ℚ) (ForceState ℚ 3) :=
  { alpha := 99 / 100
    domains := fun _ => bookGrid
    couplings := [bookCoupling]
    laws := fun _ => elasticLaw 1000 (1 / 4) false
    forces := [gravityForce true [] [(0 : Fin 1)] 0]
    sdfs := Fin.elim0
    sharpness := 10 }

def leafState : SimState leafSz ℚ 2 Unit (LawState ℚ) (ForceState ℚ 2) :=
  { world := { bodies := fun _ => .deformable leafBody, sdfs := Fin.elim0 }
    mech := { laws := fun _ => .elastic fun _ => 0, solvers := fun _ _ => 0, forces := [.gravity ![0, -10]] }
    time := 0
    step := 0
    dt := 1 / 100 }

def bookState : SimState bookSz ℚ 3 Unit (LawState ℚ) (ForceState ℚ 3) :=
  { world := { bodies := fun _ => .deformable bookBody, sdfs := Fin.elim0 }
    mech := { laws := fun _ => .elastic fun _ => 0, solvers := fun _ _ => 0, forces := [.gravity ![0, -10, 0]] }
    time := 0
    step := 0
    dt := 1 / 100 }

set_option maxRecDepth 100000 in
theorem leaf_masses : ((List.range 36).all fun j =>
    let m := nodeMass (compute .linear leafGrid leafBody.position) leafBody.mass j
    m ≤ 0 || uslCutoff < m) = true := by decide +kernel

set_option maxRecDepth 100000 in
theorem leaf_ok : (uslCall ratFns leafSolver leafState).isOk = true := by decide +kernel

set_option maxRecDepth 100000 in
theorem book_ok : (uslCall ratFns bookSolver bookState).isOk = true := by decide +kernel

theorem leaf_cells : leafGrid.numCells = 36 := by decide +kernel
theorem book_cells : bookGrid.numCells = 360 := by decide +kernel

set_option maxRecDepth 100000 in
theorem book_masses : ((List.range 360).all fun j =>
    let m := nodeMass (compute .linear bookGrid bookBody.position) bookBody.mass j
    m ≤ 0 || uslCutoff < m) = true := by decide +kernel

set_option maxRecDepth 100000 in
theorem book_slow : checkOk (uslCall ratFns bookSolver bookState) (fun s => match s.world.bodies (0 : Fin 1) with
      | .rigid _ => false
      | .deformable s' => (List.finRange 10).all fun p =>
          s'.position p 2 - bookBody.position p 2 ≤ 1 / 10 ∧ -(1 / 10) ≤ s'.position p 2 - bookBody.position p 2) = true := by
  decide +kernel

theorem leaf_inBox (p : Fin 2) : InBox (fun _ => (0 : ℚ)) (fun _ => 1) (leafBody.position p) := by
  revert p
  unfold InBox
  decide +kernel

theorem leaf_regular : Regular uslCutoff leafSolver leafState.world := by
  have hgc := goodCache_of_inBox (.inl rfl) .linear (fun _ => (0 : ℚ)) (fun _ => 1) 1 (by norm_num) 2 (by norm_num)
    leafBody.position leaf_inBox
  refine ⟨by simp [leafSolver], ?_, ?_, ?_⟩
  · intro c hc _
    obtain rfl : c = leafCoupling := by simpa [leafSolver] using hc
    exact ⟨fun _ => 0, (fun _ => 1), 1, 2, by norm_num, by norm_num, rfl, leaf_inBox⟩
  · intro c hc _ t ht
    obtain rfl : c = leafCoupling := by simpa [leafSolver] using hc
    have ht : leafBody = t := Body.deformable.inj ht
    subst ht
    change ∀ q : Fin 2, 0 < leafBody.mass q
    decide +kernel
  · intro g j
    have hsum : gridSum leafSolver.couplings g (fun c =>
        (leafState.world.bodies c.p).nodeMass c.ker (leafSolver.domains c.g) j) =
        nodeMass (compute .linear leafGrid leafBody.position) leafBody.mass j := by
      have hg : g = (0 : Fin 1) := Subsingleton.elim _ _
      subst hg
      simp only [leafSolver, gridSum, List.map_cons, List.map_nil, List.sum_cons, List.sum_nil, add_zero]
      rw [if_pos ⟨rfl, rfl⟩]
      rfl
    rw [hsum]
    intro h0
    by_cases hj : j < 36
    · have h3 := leaf_masses
      simp only [List.all_eq_true, List.mem_range, Bool.or_eq_true, decide_eq_true_eq] at h3
      rcases h3 j hj with h | h
      · exact absurd h0 (not_lt.mpr h)
      · exact h
    · exfalso
      have : nodeMass (compute .linear leafGrid leafBody.position) leafBody.mass j = 0 :=
        scatterAdd_eq_zero _ _ _ fun i hi => absurd (leaf_cells ▸ hi ▸ hgc.hash_lt i) hj
      linarith

theorem book_inBox (p : Fin 10) : InBox (fun _ => (0 : ℚ)) ![1, 1, 5] (bookBody.position p) := by
  revert p
  unfold InBox
  decide +kernel

theorem book_regular : Regular uslCutoff bookSolver bookState.world := by
  have hgc := goodCache_of_inBox (.inr rfl) .linear (fun _ => (0 : ℚ)) ![1, 1, 5] 1 (by norm_num) 2 (by norm_num)
    bookBody.position book_inBox
  refine ⟨by simp [bookSolver], ?_, ?_, ?_⟩
  · intro c hc _
    obtain rfl : c = bookCoupling := by simpa [bookSolver] using hc
    exact ⟨fun _ => 0, ![1, 1, 5], 1, 2, by norm_num, by norm_num, rfl, book_inBox⟩
  · intro c hc _ t ht
    obtain rfl : c = bookCoupling := by simpa [bookSolver] using hc
    have ht : bookBody = t := Body.deformable.inj ht
    subst ht
    change ∀ q : Fin 10, 0 < bookBody.mass q
    decide +kernel
  · intro g j
    have hsum : gridSum bookSolver.couplings g (fun c =>
        (bookState.world.bodies c.p).nodeMass c.ker (bookSolver.domains c.g) j) =
        nodeMass (compute .linear bookGrid bookBody.position) bookBody.mass j := by
      have hg : g = (0 : Fin 1) := Subsingleton.elim _ _
      subst hg
      simp only [bookSolver, gridSum, List.map_cons, List.map_nil, List.sum_cons, List.sum_nil, add_zero]
      rw [if_pos ⟨rfl, rfl⟩]
      rfl
    rw [hsum]
    intro h0
    by_cases hj : j < 360
    · have h3 := book_masses
      simp only [List.all_eq_true, List.mem_range, Bool.or_eq_true, decide_eq_true_eq] at h3
      rcases h3 j hj with h | h
      · exact absurd h0 (not_lt.mpr h)
      · exact h
    · exfalso
      have : nodeMass (compute .linear bookGrid bookBody.position) bookBody.mass j = 0 :=
        scatterAdd_eq_zero _ _ _ fun i hi => absurd (book_cells ▸ hi ▸ hgc.hash_lt i) hj
      linarith

/-- `slab_elastic_run_partial` on one step of the two points and the five layers above them: the point in the middle layer moves with the point
of the plane, and has its stress and three times its volume. -/
example : ∃ st' ut' t2 t3, uslCall ratFns leafSolver leafState = .ok st' ∧ uslCall ratFns bookSolver bookState = .ok ut' ∧
    st'.world.bodies (0 : Fin 1) = .deformable t2 ∧ ut'.world.bodies (0 : Fin 1) = .deformable t3 ∧
    (∀ a : Fin 2, t3.velocity 5 a.castSucc = t2.velocity 1 a) ∧ t3.velocity 5 2 = 0 ∧ t3.stress 5 = t2.stress 1 ∧ t3.volume 5 = 3 * t2.volume 1 := by
  obtain ⟨st', h⟩ := isOk_ok leaf_ok
  obtain ⟨ut', h'⟩ := isOk_ok book_ok
  have hslow := checkOk_ok book_slow ut' h'
  have hbound : ∀ s2 : MPState ℚ 3 10, ut'.world.bodies (0 : Fin 1) = .deformable s2 → ∀ p,
      |s2.position p 2 - bookBody.position p 2| ≤ 1 / 10 := by
    intro s2 e2 p
    rw [e2] at hslow
    simp only [List.all_eq_true, List.mem_finRange, true_implies, decide_eq_true_eq] at hslow
    have := hslow p
    exact abs_le.mpr ⟨this.2, this.1⟩
  obtain ⟨t2, t3, b2, b3, q⟩ := slab_elastic_run_partial (sv := leafSolver) (tv := bookSolver) (E := 1000) (nu := 1 / 4) [([(0 : Fin 1)], 0)]
    [([(0 : Fin 1)], 0)] rfl rfl (fun _ => rfl) (fun _ => rfl) 1 (runSteps_succ_ok.mpr ⟨_, rfl, h⟩) (runSteps_succ_ok.mpr ⟨_, rfl, h'⟩)
    (fun i hi si hs => by
      obtain rfl : i = 0 := by omega
      have : leafState = si := by simpa [runSteps] using hs
      exact this ▸ leaf_regular)
    (fun i hi si hs => by
      obtain rfl : i = 0 := by omega
      have : bookState = si := by simpa [runSteps] using hs
      exact this ▸ book_regular) rfl rfl (c := leafCoupling) rfl rfl (d := bookCoupling) rfl rfl rfl book_over
    ⟨fun a => by fin_cases a <;> simp [gridAccel, leafState, bookState, leafCoupling, bookCoupling],
      by simp [gridAccel, bookState, bookCoupling]⟩ (s2 := leafBody) (s3 := bookBody) rfl rfl (lo := 2) (hi := 7) (τ := 3) (w := 1 / 10)
    (by norm_num) (by decide +kernel) (by norm_num) (by norm_num) (by
      intro k hk st1 st2 e1 e2 s1 s2 b1 b2 p
      obtain rfl : k = 0 := by omega
      have : bookState = st1 := by simpa [runSteps] using e1
      subst this
      rw [h'] at e2
      cases e2
      have b1 := Body.deformable.inj b1
      subst b1
      change _ ≤ 1 / 10 * 1
      rw [mul_one]
      exact hbound s2 b2 p) (of := bookOf) (ξ := fun _ => 1 / 2) book_slab
  have hin : InLayers bookGrid (2 + ((1 : ℕ) : ℚ) * (2 * halfWidth Kernel.linear + 1 / 10)) (7 - ((1 : ℕ) : ℚ) * (2 * halfWidth Kernel.linear + 1 / 10))
      (t3.position 5) := by
    intro d
    have h1 := abs_le.mp (hbound t3 b3 5)
    have h2 : bookBody.position 5 2 = 5 / 2 := by decide +kernel
    have e2 : (zGrid bookGrid).origin = fun _ => (-2 : ℚ) := by
      funext d
      simp [zGrid, GridDomain.create]
    have e3 : (zGrid bookGrid).cellSize = 1 := rfl
    rw [h2] at h1
    unfold cellCoord
    rw [e2, e3]
    simp only [halfWidth]
    push_cast
    constructor <;> linarith [h1.1, h1.2]
  exact ⟨st', ut', t2, t3, h, h', b2, b3, (q.velocity 5 hin).1, (q.velocity 5 hin).2, q.stress 5 hin, q.volume 5 hin⟩

end Hydrax
