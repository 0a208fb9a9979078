import Verif.Lemmas.LatForces
import Verif.Lemmas.LatObstacle
import Verif.Lemmas.ExampleScene

/-!
# C91, C92: the simulation does not depend on the choice of axes

Exchange or reverse axes of the grid, move its origin, renumber the points of the bodies: a step of the USL solver on the scene so
described is the step on the original scene, described in the same way. All scenes of the package (laws, forces), both kernels,
two and three dimensions, any number of steps.
-/

set_option linter.unusedSectionVars false

namespace Hydrax

open Spec

section
variable {z : Sz} {K : Type*} [Field K] [LinearOrder K] [IsStrictOrderedRing K] [FloorRing K] {dim : ℕ} {SS : Type*}

/-- A change of description of a scene: `T` acts on places and vectors, point `q` of body `p` is called `pts p q`, entry `i` of the
state of law `c` is called `ρ c i`, and `sdf` translates the states of obstacles. -/
def Spec.LatSym.scene (T : LatSym K dim) (h : dim ≤ 3) (pts : (p : Fin z.P) → Equiv.Perm (Fin (z.np p)))
    (ρ : Fin z.C → Equiv.Perm ℕ) (sdf : Fin z.D → SS → SS) : SceneSym z K dim SS (LawState K) (ForceState K dim) :=
  { T := T, h := h, pts := pts, sdf := sdf, law := fun c ls => rotatedState (T.mat h) (renumbered (ρ c) ls)
    force := T.forceState }

/-- `sv'` is the solver `sv` on the grid and with the obstacles described anew; laws, forces, couplings and parameters are those of
`sv` and belong to the package. -/
structure Spec.LatSym.Image (T : LatSym K dim) (pts : (p : Fin z.P) → Equiv.Perm (Fin (z.np p))) (ρ : Fin z.C → Equiv.Perm ℕ)
    (sdf : Fin z.D → SS → SS) (sv sv' : Solver z K dim SS (LawState K) (ForceState K dim)) : Prop where
  dims : dim = 2 ∨ dim = 3
  alpha : sv'.alpha = sv.alpha
  domains : ∀ g, T.Maps (sv.domains g) (sv'.domains g)
  couplings : sv'.couplings = sv.couplings
  laws : sv'.laws = sv.laws
  libLaws : ∀ c, LibLaw (sv.laws c)
  forces : sv'.forces = sv.forces
  libForces : ∀ f ∈ sv.forces, LibForce f
  sdfs : ∀ d, T.SdfSym (sdf d) (sv.sdfs d) (sv'.sdfs d)
  numbers : ∀ c ∈ sv.couplings, ∀ q : Fin (z.np c.p), ρ c.c q = pts c.p q

variable {T : LatSym K dim} {h : dim ≤ 3} {pts : (p : Fin z.P) → Equiv.Perm (Fin (z.np p))} {ρ : Fin z.C → Equiv.Perm ℕ}
  {sdf : Fin z.D → SS → SS} {sv sv' : Solver z K dim SS (LawState K) (ForceState K dim)}

/-- **C91.** One step. Either both calls succeed and the results correspond, or both raise the same exception. -/
theorem usl_symmetric (hs : T.Image pts ρ sdf sv sv') (fn : MathFns K) (st : SimState z K dim SS (LawState K) (ForceState K dim)) :
    uslCall fn sv' ((T.scene h pts ρ sdf).state st) = (uslCall fn sv st).map (T.scene h pts ρ sdf).state := by
  refine SceneSym.call_sym ⟨hs.dims, hs.alpha, hs.domains, hs.couplings, fun c hc => ?_, ?_, hs.sdfs⟩ fn st
  · rw [hs.laws]
    exact LatSym.libLaw_sym T h (hs.libLaws c.c) (hs.numbers c hc)
  · rw [hs.forces]
    exact List.forall₂_same.mpr fun f hf => SceneSym.libForce_sym rfl (hs.libForces f hf)

/-- **C91.** Any number of steps. -/
theorem usl_run_symmetric (hs : T.Image pts ρ sdf sv sv') (fn : MathFns K) (k : ℕ)
    (st : SimState z K dim SS (LawState K) (ForceState K dim)) :
    runSteps (uslCall fn sv') k ((T.scene h pts ρ sdf).state st)
      = (runSteps (uslCall fn sv) k st).map (T.scene h pts ρ sdf).state := by
  induction k with
  | zero => rfl
  | succ k ih =>
    simp only [runSteps, ih]
    cases runSteps (uslCall fn sv) k st with
    | error e => rfl
    | ok s => exact usl_symmetric hs fn s

/-- **C92.** A scene that looks the same after exchanging or reversing axes and renumbering points keeps doing so: position,
velocity, stress and deformation of the corresponding points stay mirror images of each other. -/
theorem symmetric_scene_stays (hs : T.Image pts ρ sdf sv sv) (fn : MathFns K) (k : ℕ)
    {st st' : SimState z K dim SS (LawState K) (ForceState K dim)} (h0 : (T.scene h pts ρ sdf).state st = st)
    (hr : runSteps (uslCall fn sv) k st = .ok st') {p : Fin z.P} {s : MPState K dim (z.np p)}
    (hb : st'.world.bodies p = .deformable s) (q : Fin (z.np p)) :
    s.position (pts p q) = T.point (s.position q) ∧ s.velocity (pts p q) = T.vec (s.velocity q) ∧
    s.stress (pts p q) = rotated (T.mat h) (s.stress q) ∧ s.F (pts p q) = rotated (T.mat h) (s.F q) ∧
    s.volume (pts p q) = s.volume q := by
  have e := usl_run_symmetric (h := h) hs fn k st
  rw [h0, hr] at e
  have e1 : st' = (T.scene h pts ρ sdf).state st' := by
    simp only [Except.map, Except.ok.injEq] at e
    exact e
  have e2 : st'.world.bodies p = T.body h (pts p) (st'.world.bodies p) := by
    conv_lhs => rw [e1]
    rfl
  rw [hb] at e2
  simp only [Spec.LatSym.body, Body.deformable.injEq] at e2
  have e3 : ∀ q, s.position q = T.point (s.position ((pts p).symm q)) ∧ s.velocity q = T.vec (s.velocity ((pts p).symm q)) ∧
      s.stress q = rotated (T.mat h) (s.stress ((pts p).symm q)) ∧ s.F q = rotated (T.mat h) (s.F ((pts p).symm q)) ∧
      s.volume q = s.volume ((pts p).symm q) := fun q =>
    ⟨congrFun (congrArg MPState.position e2) q, congrFun (congrArg MPState.velocity e2) q,
      congrFun (congrArg MPState.stress e2) q, congrFun (congrArg MPState.F e2) q, congrFun (congrArg MPState.volume e2) q⟩
  have := e3 (pts p q)
  simpa only [Equiv.symm_apply_apply] using this

end

/-! ### A scene without obstacles meeting the hypotheses -/

/-- Reverse the first axis of the unit square. -/
def exMirror : LatSym ℚ 2 := { perm := 1, flip := ![true, false], shift := ![1, 0] }

/-- Two points facing each other across the middle of the square. -/
def mirrorPair : SimState exSz ℚ 2 Unit (LawState ℚ) (ForceState ℚ 2) :=
  { exState with world := { bodies := fun _ => .deformable (MPState.create
      { position := ![![1 / 3, 1 / 4], ![2 / 3, 1 / 4]]
        velocity := some ![![1, 2], ![-1, 2]]
        mass := some fun _ => 1
        volume := some fun _ => 1 / 4
        stress := some ![!![1, 2, 0; 2, 3, 0; 0, 0, 1], !![1, -2, 0; -2, 3, 0; 0, 0, 1]] }), sdfs := Fin.elim0 } }

/-- The two points change places. -/
def exSwap : (p : Fin exSz.P) → Equiv.Perm (Fin (exSz.np p)) := fun _ => Equiv.swap (0 : Fin 2) 1

theorem exMirror_maps (ker : Kernel) (reset : Bool) :
    exMirror.Image exSwap (fun _ => Equiv.swap 0 1) Fin.elim0 (exSolver ker reset) (exSolver ker reset) where
  dims := .inl rfl
  alpha := rfl
  domains g := by
    refine ⟨rfl, ?_, rfl, rfl, ?_, ?_⟩
    · simp only [exSolver]; decide +kernel
    · simp only [exSolver]; decide +kernel
    · simp only [exSolver]; decide +kernel
  couplings := rfl
  laws := rfl
  libLaws c := .elastic _ _ _
  forces := rfl
  libForces f hf := by rw [exSolver_forces, List.mem_singleton] at hf; subst hf; exact .gravity _ _ _ _
  sdfs d := Fin.elim0 d
  numbers c _ q := by
    have : ∀ q : Fin 2, (Equiv.swap (0 : ℕ) 1) q = (Equiv.swap (0 : Fin 2) 1 q : ℕ) := by decide
    exact this q

/-- The scene is its own mirror image. -/
theorem mirrorPair_symmetric :
    (exMirror.scene (by decide) exSwap (fun _ => Equiv.swap 0 1) Fin.elim0).state mirrorPair = mirrorPair := by
  have hb : exMirror.body (n := 2) (by decide) (Equiv.swap (0 : Fin 2) 1) (mirrorPair.world.bodies 0) = mirrorPair.world.bodies 0 := by
    simp only [mirrorPair, Spec.LatSym.body, Spec.LatSym.mp, MPState.create]
    congr 2
    all_goals (funext q; fin_cases q)
    all_goals decide +kernel
  have hw : (exMirror.scene (by decide) exSwap (fun _ => Equiv.swap 0 1) Fin.elim0).world mirrorPair.world = mirrorPair.world := by
    unfold Spec.SceneSym.world
    congr 1
    · funext p
      obtain rfl : p = (0 : Fin 1) := Subsingleton.elim _ _
      exact hb
  have hm : (exMirror.scene (SS := Unit) (by decide) exSwap (fun _ => Equiv.swap 0 1) Fin.elim0).mech mirrorPair.mech = mirrorPair.mech := by
    simp only [Spec.SceneSym.mech, mirrorPair, exState, Spec.LatSym.scene, rotatedState, renumbered]
    congr 1
    · funext c
      congr 1
      funext n
      exact rotated_zero
    · simp only [List.map]
      congr 1
      have e : exMirror.vec ![0, -10] = ![0, -10] := by decide +kernel
      exact congrArg ForceState.gravity e
  unfold Spec.SceneSym.state
  rw [hw, hm]

/-- A thousand steps of that scene: either they fail or the two points still mirror each other. -/
example (ker : Kernel) (reset : Bool) (st' : SimState exSz ℚ 2 Unit (LawState ℚ) (ForceState ℚ 2))
    (hr : runSteps (uslCall ratFns (exSolver ker reset)) 1000 mirrorPair = .ok st') (s : MPState ℚ 2 2)
    (hb : st'.world.bodies (0 : Fin 1) = .deformable s) :
    s.position 1 0 = 1 - s.position 0 0 ∧ s.position 1 1 = s.position 0 1 ∧ s.velocity 1 0 = -s.velocity 0 0 := by
  have := symmetric_scene_stays (exMirror_maps ker reset) ratFns 1000 mirrorPair_symmetric hr hb (0 : Fin 2)
  have h1 : s.position 1 = exMirror.point (s.position 0) := this.1
  have h2 : s.velocity 1 = exMirror.vec (s.velocity 0) := this.2.1
  refine ⟨?_, ?_, ?_⟩
  · rw [h1]; change -1 * s.position 0 0 + 1 = _; ring
  · rw [h1]; change 1 * s.position 0 1 + 0 = _; ring
  · rw [h2]; change -1 * s.velocity 0 0 = _; ring

/-- The first step does not fail and the points move. -/
example : probe (uslCall ratFns (exSolver .linear false) mirrorPair) (0 : Fin 1) (fun s => s.velocity (0 : Fin 2) 0 + s.velocity (1 : Fin 2) 0) = some 0 ∧
    probe (uslCall ratFns (exSolver .linear false) mirrorPair) (0 : Fin 1) (fun s => s.velocity (0 : Fin 2) 0) ≠ some 1 := by
  decide +kernel

/-! ### Obstacles -/

/-- The walls of a box, described anew: wall `i` of the box is wall `T.wall i` of its image. -/
def Spec.LatSym.wall {K : Type*} {dim : ℕ} (T : LatSym K dim) : Fin (dim + dim) → Fin (dim + dim) :=
  Fin.addCases (fun d => if T.flip d then Fin.natAdd dim (T.perm d) else Fin.castAdd dim (T.perm d))
    (fun d => if T.flip d then Fin.castAdd dim (T.perm d) else Fin.natAdd dim (T.perm d))

section
variable {K : Type*} [Field K] [LinearOrder K] [IsStrictOrderedRing K]

/-- `d'` is the image of the box `d`. -/
structure Spec.LatSym.BoxMaps {dim : ℕ} (T : LatSym K dim) (d d' : DomainParams K dim) : Prop where
  lo : ∀ a, d'.lo (T.perm a) = T.shift (T.perm a) + if T.flip a then -d.hi a else d.lo a
  hi : ∀ a, d'.hi (T.perm a) = T.shift (T.perm a) + if T.flip a then -d.lo a else d.hi a
  frictions : ∀ i, d'.frictions (T.wall i) = d.frictions i

/-- Exactly one wall is closest to `x`. -/
def Spec.OneWall {dim : ℕ} (d : DomainParams K dim) (x : Fin dim → K) : Prop :=
  ∃ i, ∀ j, j ≠ i → domainDists d x i < domainDists d x j

variable {dim : ℕ} {T : LatSym K dim} {d d' : DomainParams K dim}

theorem wall_dists (hd : T.BoxMaps d d') (x : Fin dim → K) (i : Fin (dim + dim)) :
    domainDists d' (T.point x) (T.wall i) = domainDists d x i := by
  have hp : ∀ a, T.point x (T.perm a) = T.sg a * x a + T.shift (T.perm a) := fun a => by
    simp only [Spec.LatSym.point, LatSym.vec_perm]
  refine Fin.addCases (fun a => ?_) (fun a => ?_) i
  · simp only [Spec.LatSym.wall, Fin.addCases_left]
    by_cases hf : T.flip a
    · rw [if_pos hf, domainDists_natAdd, domainDists_castAdd]
      simp only [wallDepth, hp, hd.hi, Spec.LatSym.sg, hf, if_true, Bool.false_eq_true, if_false]
      ring
    · rw [if_neg hf, domainDists_castAdd, domainDists_castAdd]
      simp only [wallDepth, hp, hd.lo, Spec.LatSym.sg, hf, Bool.false_eq_true, if_false]
      ring
  · simp only [Spec.LatSym.wall, Fin.addCases_right]
    by_cases hf : T.flip a
    · rw [if_pos hf, domainDists_natAdd, domainDists_castAdd]
      simp only [wallDepth, hp, hd.lo, Spec.LatSym.sg, hf, if_true, Bool.false_eq_true, if_false]
      ring
    · rw [if_neg hf, domainDists_natAdd, domainDists_natAdd]
      simp only [wallDepth, hp, hd.hi, Spec.LatSym.sg, hf, if_true, Bool.false_eq_true, if_false]
      ring

theorem wall_left (T : LatSym K dim) (a : Fin dim) :
    T.wall (Fin.castAdd dim a) = if T.flip a then Fin.natAdd dim (T.perm a) else Fin.castAdd dim (T.perm a) :=
  Fin.addCases_left a

theorem wall_right (T : LatSym K dim) (a : Fin dim) :
    T.wall (Fin.natAdd dim a) = if T.flip a then Fin.castAdd dim (T.perm a) else Fin.natAdd dim (T.perm a) :=
  Fin.addCases_right a

theorem wall_surj (T : LatSym K dim) (j : Fin (dim + dim)) : ∃ i, T.wall i = j := by
  refine Fin.addCases (fun a => ?_) (fun a => ?_) j
  · by_cases hf : T.flip (T.perm.symm a)
    · exact ⟨Fin.natAdd dim (T.perm.symm a), by rw [wall_right, if_pos hf, Equiv.apply_symm_apply]⟩
    · exact ⟨Fin.castAdd dim (T.perm.symm a), by rw [wall_left, if_neg hf, Equiv.apply_symm_apply]⟩
  · by_cases hf : T.flip (T.perm.symm a)
    · exact ⟨Fin.castAdd dim (T.perm.symm a), by rw [wall_left, if_pos hf, Equiv.apply_symm_apply]⟩
    · exact ⟨Fin.natAdd dim (T.perm.symm a), by rw [wall_right, if_neg hf, Equiv.apply_symm_apply]⟩

end

section
variable {K : Type*} [Field K] [LinearOrder K] [IsStrictOrderedRing K] {m : ℕ} {T : LatSym K (m + 1)}
  {d d' : DomainParams K (m + 1)}

theorem domainDist_argmin (d : DomainParams K (m + 1)) (x : Fin (m + 1) → K) :
    domainDist d x = domainDists d x (domainWall d x) := (argmin_minv (m := m + 1 + m) _).symm

theorem domainWall_le (d : DomainParams K (m + 1)) (x : Fin (m + 1) → K) (i : Fin (m + 1 + (m + 1))) :
    domainDists d x (domainWall d x) ≤ domainDists d x i := argmin_le (m + 1 + m) _ i

/-- The depth below the nearest wall does not depend on the axes. -/
theorem domain_dist_sym (hd : T.BoxMaps d d') (x : Fin (m + 1) → K) : domainDist d' (T.point x) = domainDist d x := by
  rw [domainDist_argmin, domainDist_argmin]
  apply le_antisymm
  · rw [← wall_dists hd x (domainWall d x)]
    exact domainWall_le _ _ _
  · obtain ⟨i, hi⟩ := wall_surj T (domainWall d' (T.point x))
    rw [← hi, wall_dists hd]
    exact domainWall_le _ _ _

theorem domain_wall_sym (hd : T.BoxMaps d d') {x : Fin (m + 1) → K} (h1 : OneWall d x) :
    domainWall d' (T.point x) = T.wall (domainWall d x) := by
  obtain ⟨w, hw⟩ := h1
  have u : ∀ i, domainDists d x i ≤ domainDists d x w → i = w := fun i hi => by
    by_contra hne
    exact absurd (hw i hne) (not_lt.mpr hi)
  have e1 : domainWall d x = w := u _ (domainWall_le d x w)
  obtain ⟨i, hi⟩ := wall_surj T (domainWall d' (T.point x))
  have : domainDists d x i ≤ domainDists d x w := by
    rw [← wall_dists hd x i, hi, ← wall_dists hd x w]
    exact domainWall_le _ _ _
  rw [e1, ← hi, u i this]

theorem normal_of_wall (d : DomainParams K (m + 1)) (x : Fin (m + 1) → K) :
    domainNormal d x = Fin.addCases (motive := fun _ => Fin (m + 1) → K) (fun a => Pi.single a 1) (fun a => Pi.single a (-1))
      (domainWall d x) := by
  unfold domainNormal
  generalize domainWall d x = i
  refine Fin.addCases (fun a => ?_) (fun a => ?_) i
  · rw [Fin.addCases_left]
    funext b
    have : b.val = a.val % (m + 1) ↔ b = a := by rw [Nat.mod_eq_of_lt a.isLt]; exact Fin.ext_iff.symm
    by_cases hb : b = a
    · subst hb
      simp [Nat.mod_eq_of_lt b.isLt, b.isLt]
    · simp [this, hb]
  · rw [Fin.addCases_right]
    funext b
    have e : (Fin.natAdd (m + 1) a).val % (m + 1) = a.val := by
      rw [Fin.val_natAdd, Nat.add_mod_left, Nat.mod_eq_of_lt a.isLt]
    have hn : ¬ (Fin.natAdd (m + 1) a).val < m + 1 := by rw [Fin.val_natAdd]; omega
    simp only [e, hn, if_false]
    by_cases hb : b = a
    · subst hb
      simp
    · have : ¬ b.val = a.val := fun h => hb (Fin.ext h)
      simp [Pi.single_eq_of_ne hb, this]

theorem LatSym.vec_single (T : LatSym K (m + 1)) (a : Fin (m + 1)) (c : K) :
    T.vec (Pi.single a c) = Pi.single (T.perm a) (T.sg a * c) := by
  apply LatSym.vec_ext T
  intro b
  rw [LatSym.vec_perm]
  by_cases hb : b = a
  · subst hb; simp
  · rw [Pi.single_eq_of_ne hb, Pi.single_eq_of_ne (fun h => hb (T.perm.injective h)), mul_zero]

/-- **C91 (domain walls), partial.** Depth everywhere; normal and friction wherever one wall is closest. Missing: places equally
far from two walls, where it is false (`corner_prefers_axis`). -/
theorem domainSdf_sym_partial (hd : T.BoxMaps d d') (x : Fin (m + 1) → K) :
    domainDist d' (T.point x) = domainDist d x ∧
    (OneWall d x → domainNormal d' (T.point x) = T.vec (domainNormal d x) ∧
      domainFriction d' (T.point x) = domainFriction d x) := by
  refine ⟨domain_dist_sym hd x, fun h1 => ⟨?_, ?_⟩⟩
  · rw [normal_of_wall, normal_of_wall, domain_wall_sym hd h1]
    generalize domainWall d x = i
    refine Fin.addCases (fun a => ?_) (fun a => ?_) i
    · rw [wall_left, Fin.addCases_left, LatSym.vec_single]
      by_cases hf : T.flip a
      · rw [if_pos hf, Fin.addCases_right, Spec.LatSym.sg, if_pos hf, mul_one]
      · rw [if_neg hf, Fin.addCases_left, Spec.LatSym.sg, if_neg hf, mul_one]
    · rw [wall_right, Fin.addCases_right, LatSym.vec_single]
      by_cases hf : T.flip a
      · rw [if_pos hf, Fin.addCases_left, Spec.LatSym.sg, if_pos hf, neg_one_mul, neg_neg]
      · rw [if_neg hf, Fin.addCases_right, Spec.LatSym.sg, if_neg hf, one_mul]
  · unfold domainFriction
    rw [domain_wall_sym hd h1, hd.frictions]

end

/-- Reverse the first axis of a planar box. -/
def Spec.LatSym.mirror {K : Type*} [Field K] (d : DomainParams K 2) : LatSym K 2 :=
  { perm := 1, flip := ![true, false], shift := ![d.lo 0 + d.hi 0, 0] }

/-- **C91 (domain walls) refuted.** Every box has places, equally far from the left wall and the floor, where the contact normal
points away from the left wall, while at the mirror image place it points away from the floor. -/
theorem corner_prefers_axis {K : Type*} [Field K] [LinearOrder K] [IsStrictOrderedRing K] (d : DomainParams K 2) {x : Fin 2 → K}
    (htie : x 0 - d.lo 0 = x 1 - d.lo 1) (h0 : x 0 - d.lo 0 < d.hi 0 - x 0) (h1 : x 1 - d.lo 1 < d.hi 1 - x 1) :
    domainNormal d x = ![1, 0] ∧ domainNormal d ((LatSym.mirror d).point x) = ![0, 1] ∧
    domainNormal d ((LatSym.mirror d).point x) ≠ (LatSym.mirror d).vec (domainNormal d x) := by
  have p0 : (LatSym.mirror d).point x 0 = d.lo 0 + d.hi 0 - x 0 := by
    change -1 * x 0 + (d.lo 0 + d.hi 0) = _; ring
  have p1 : (LatSym.mirror d).point x 1 = x 1 := by
    change 1 * x 1 + 0 = _; ring
  have w0 : domainWall d x = 0 := by
    have e2 : ¬ d.hi 0 - x 0 < x 0 - d.lo 0 := not_lt.mpr h0.le
    have e3 : ¬ d.hi 1 - x 1 < x 0 - d.lo 0 := not_lt.mpr (htie ▸ h1.le)
    simp [domainWall, argmin, domainDists, htie.symm, e2, e3]
  have w1 : domainWall d ((LatSym.mirror d).point x) = 1 := by
    have q0 : x 1 - d.lo 1 < d.lo 0 + d.hi 0 - x 0 - d.lo 0 := by rw [← htie]; linarith
    have q2 : ¬ d.hi 0 - (d.lo 0 + d.hi 0 - x 0) < x 1 - d.lo 1 := not_lt.mpr (by rw [← htie]; linarith)
    have q3 : ¬ d.hi 1 - x 1 < x 1 - d.lo 1 := not_lt.mpr h1.le
    simp [domainWall, argmin, domainDists, p0, p1, q0, q2, q3]
  have n0 : domainNormal d x = ![1, 0] := by
    funext a; simp only [domainNormal, w0]; fin_cases a <;> simp
  have n1 : domainNormal d ((LatSym.mirror d).point x) = ![0, 1] := by
    funext a; simp only [domainNormal, w1]; fin_cases a <;> simp
  refine ⟨n0, n1, fun e => ?_⟩
  have := congrFun e 1
  rw [n0, n1] at this
  change (1 : K) = 1 * 0 at this
  simp at this

/-- A rolling ball. -/
example (T : LatSym ℝ 3) (r : ℝ) : T.SdfSym (T.frame le_rfl) (sphereSdf realFns (fun f x a => lineDeriv ℝ f x (Pi.single a 1)) r)
    (sphereSdf realFns (fun f x a => lineDeriv ℝ f x (Pi.single a 1)) r) :=
  sphereSdf_sym T le_rfl realFns (partials_gradSym _) r

/-- A turning box of sides `2a` and `2b`, seen with the axes exchanged: sides `2b` and `2a`. -/
example (T : LatSym ℝ 2) (hp : T.perm = Equiv.swap 0 1) (hf : T.flip = fun _ => false) (a b f : ℝ) :
    T.SdfSym (T.frame (by decide))
      (baseSdf realFns (fun f x a => lineDeriv ℝ f x (Pi.single a 1)) (boxDist realFns ![a, b]) fun _ => f)
      (baseSdf realFns (fun f x a => lineDeriv ℝ f x (Pi.single a 1)) (boxDist realFns ![b, a]) fun _ => f) := by
  refine baseSdf_sym T _ realFns_parity (partials_gradSym _) (fun y => ?_) fun _ => rfl
  have e0 : T.vec y 0 = y 1 := by simp [Spec.LatSym.vec, Spec.LatSym.sg, hp, hf]
  have e1 : T.vec y 1 = y 0 := by simp [Spec.LatSym.vec, Spec.LatSym.sg, hp, hf]
  have em : ∀ f : Fin 2 → ℝ, maxv (m := 1) f = max (f 0) (f 1) := by
    intro f
    apply le_antisymm
    · refine Finset.sup'_le _ _ fun i _ => ?_
      fin_cases i
      · exact le_max_left _ _
      · exact le_max_right _ _
    · exact max_le (Finset.le_sup' f (Finset.mem_univ 0)) (Finset.le_sup' f (Finset.mem_univ 1))
  have es : ∀ f : Fin (1 + 1) → ℝ, ∑ x, f x = f 0 + f 1 := Fin.sum_univ_two
  simp only [boxDist, safeNorm, es, em, e0, e1, Matrix.cons_val_zero, Matrix.cons_val_one]
  rw [add_comm (max _ _ ^ 2) (max (|y 0| - a) 0 ^ 2), max_comm (|y 1| - b) (|y 0| - a)]

/-- A place near the left wall and its image. -/
example : OneWall { lo := ![0, 0], hi := ![1, 1], frictions := fun _ => (0 : ℚ) } ![1 / 4, 1 / 3] :=
  ⟨0, by decide +kernel⟩

/-! ### The walls of the domain break symmetry -/

/-- As `exSz`, with one obstacle. -/
abbrev wallSz : Sz := { P := 1, G := 1, C := 1, S := 1, D := 1, np := fun _ => 2 }

/-- Exchange the axes. -/
def exDiag : LatSym ℚ 2 := { perm := Equiv.swap 0 1, flip := fun _ => false, shift := fun _ => 0 }

def wallBox : DomainParams ℚ 2 := { lo := fun _ => 0, hi := fun _ => 1, frictions := fun _ => 0 }

def wallSolver : Solver wallSz ℚ 2 (SdfState ℚ 2) (LawState ℚ) (ForceState ℚ 2) :=
  { alpha := 99 / 100
    domains := fun _ => GridDomain.create (fun _ => 0) (fun _ => 1) (1 / 2) 2
    couplings := [{ ker := .linear, p := (0 : Fin 1), g := (0 : Fin 1), c := (0 : Fin 1), s := (0 : Fin 1), skip := false }]
    laws := fun _ => elasticLaw 1000 (1 / 4) false
    forces := [sdfColliderForce ratFns (some (0 : Fin 1)) [(0 : Fin 1)] 0 0]
    sdfs := fun _ => domainSdf wallBox
    sharpness := 10 }

/-- Two points on the diagonal of the unit square moving along it towards the corner. -/
def wallState : SimState wallSz ℚ 2 (SdfState ℚ 2) (LawState ℚ) (ForceState ℚ 2) :=
  { world := { bodies := fun _ => .deformable (MPState.create
                { position := ![fun _ => 1 / 8, fun _ => 1 / 4]
                  velocity := some fun _ _ => -1
                  mass := some fun _ => 1
                  volume := some fun _ => 1 / 4 })
               sdfs := fun _ => SdfState.create fun _ => 0 }
    mech := { laws := fun _ => .elastic fun _ => 0, solvers := fun _ _ => 0, forces := [.gravity fun _ => 0] }
    time := 0
    step := 0
    dt := 1 / 100 }

theorem wallState_symmetric : (exDiag.scene (z := wallSz) (by decide) (fun _ => 1) (fun _ => 1) fun _ => exDiag.frame (by decide)).state
    wallState = wallState := by
  have hb : exDiag.body (n := 2) (by decide) 1 (wallState.world.bodies (0 : Fin 1)) = wallState.world.bodies (0 : Fin 1) := by
    simp only [wallState, Spec.LatSym.body, Spec.LatSym.mp, MPState.create]
    congr 2
    all_goals (funext q; fin_cases q)
    all_goals decide +kernel
  have hf : exDiag.frame (by decide) (wallState.world.sdfs (0 : Fin 1)) = wallState.world.sdfs (0 : Fin 1) := by
    simp only [wallState, Spec.LatSym.frame, SdfState.create]
    congr 1
    all_goals decide +kernel
  have hw : (exDiag.scene (z := wallSz) (by decide) (fun _ => 1) (fun _ => 1) fun _ => exDiag.frame (by decide)).world
      wallState.world = wallState.world := by
    unfold Spec.SceneSym.world
    congr 1
    · funext p
      obtain rfl : p = (0 : Fin 1) := Subsingleton.elim _ _
      exact hb
    · funext d
      obtain rfl : d = (0 : Fin 1) := Subsingleton.elim _ _
      exact hf
  have hm : (exDiag.scene (z := wallSz) (by decide) (fun _ => 1) (fun _ => 1) fun _ => exDiag.frame (by decide)).mech
      wallState.mech = wallState.mech := by
    simp only [Spec.SceneSym.mech, wallState, Spec.LatSym.scene, rotatedState, renumbered]
    congr 1
    · funext c
      congr 1
      funext n
      exact rotated_zero
    · simp only [List.map]
      congr 1
      have e : exDiag.vec (fun _ => 0) = fun _ => 0 := by decide +kernel
      exact congrArg ForceState.gravity e
  unfold Spec.SceneSym.state
  rw [hw, hm]

/-- **C92 refuted with domain walls.** The box, the grid, the collider and the two points are unchanged by exchanging the axes, the
walls have no friction. After one step the first point moves with (-3/16, -13/16): the corner was taken for the left wall only. -/
theorem walls_break_symmetry :
    (exDiag.scene (z := wallSz) (by decide) (fun _ => 1) (fun _ => 1) fun _ => exDiag.frame (by decide)).state wallState = wallState ∧
    exDiag.Maps (wallSolver.domains (0 : Fin 1)) (wallSolver.domains (0 : Fin 1)) ∧ exDiag.BoxMaps wallBox wallBox ∧
    probe (uslCall ratFns wallSolver wallState) (0 : Fin 1) (fun s => s.velocity (0 : Fin 2) 0) = some (-3 / 16) ∧
    probe (uslCall ratFns wallSolver wallState) (0 : Fin 1) (fun s => s.velocity (0 : Fin 2) 1) = some (-13 / 16) := by
  refine ⟨wallState_symmetric, ⟨?_, ?_, rfl, rfl, ?_, ?_⟩, ⟨?_, ?_, ?_⟩, ?_, ?_⟩
  all_goals (try simp only [wallSolver, wallBox])
  all_goals decide +kernel

end Hydrax
