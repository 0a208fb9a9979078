import Verif.Lemmas.LatScene
import Verif.Props.Isotropy

/-!
# Laws and forces of the package under a symmetry of the lattice (helper lemmas)
-/

set_option linter.unusedSectionVars false

namespace Hydrax

open Spec

/-- The state of a law with its per-point arrays renumbered. -/
def Spec.renumbered {K : Type*} (ρ : Equiv.Perm ℕ) : LawState K → LawState K
  | .elastic r => .elastic fun i => r (ρ.symm i)
  | .density r => .density fun i => r (ρ.symm i)
  | .dp e a b => .dp (fun i => e (ρ.symm i)) (fun i => a (ρ.symm i)) fun i => b (ρ.symm i)
  | .mcc pc r e => .mcc (fun i => pc (ρ.symm i)) (r.map fun f i => f (ρ.symm i)) fun i => e (ρ.symm i)

section
variable {K : Type*} [Field K] [LinearOrder K] [IsStrictOrderedRing K] [FloorRing K] {dim n : ℕ}

/-- Image of the state of a force: gravity is a vector. -/
def Spec.LatSym.forceState (T : LatSym K dim) : ForceState K dim → ForceState K dim
  | .gravity g => .gravity (T.vec g)
  | .damping a => .damping a
  | .none => .none

/-- The body with renumbered points. -/
def MPState.reindex (π : Equiv.Perm (Fin n)) (s : MPState K dim n) : MPState K dim n :=
  { position := fun q => s.position (π.symm q), velocity := fun q => s.velocity (π.symm q)
    force := fun q => s.force (π.symm q), mass := fun q => s.mass (π.symm q), volume := fun q => s.volume (π.symm q)
    volume0 := fun q => s.volume0 (π.symm q), L := fun q => s.L (π.symm q), stress := fun q => s.stress (π.symm q)
    F := fun q => s.F (π.symm q), FStore := s.FStore.map fun f q => f (π.symm q), volScalar := s.volScalar }

theorem perm_symm_val {π : Equiv.Perm (Fin n)} {ρ : Equiv.Perm ℕ} (hρ : ∀ q : Fin n, ρ q = π q) (q : Fin n) :
    ρ.symm q = (π.symm q : ℕ) := by
  rw [Equiv.symm_apply_eq, hρ, Equiv.apply_symm_apply]

theorem ofFin_renumber {α : Type*} {π : Equiv.Perm (Fin n)} {ρ : Equiv.Perm ℕ} (hρ : ∀ q : Fin n, ρ q = π q) (d : α)
    (f : Fin n → α) : ofFin d (fun q => f (π.symm q)) = fun i => ofFin d f (ρ.symm i) := by
  funext i
  unfold ofFin
  by_cases hi : i < n
  · have e := perm_symm_val hρ ⟨i, hi⟩
    simp only at e
    have h2 : ρ.symm i < n := by rw [e]; exact (π.symm ⟨i, hi⟩).isLt
    rw [dif_pos hi, dif_pos h2]
    have e' : π.symm ⟨i, hi⟩ = ⟨ρ.symm i, h2⟩ := Fin.ext e.symm
    exact congrArg f e'
  · have h2 : ¬ ρ.symm i < n := by
      intro h
      have := hρ ⟨ρ.symm i, h⟩
      simp only [Equiv.apply_symm_apply] at this
      exact hi (this ▸ (π ⟨ρ.symm i, h⟩).isLt)
    rw [dif_neg hi, dif_neg h2]

theorem libLaw_renumber {law : Law K dim (LawState K)} (hl : LibLaw law) {π : Equiv.Perm (Fin n)} {ρ : Equiv.Perm ℕ}
    (hρ : ∀ q : Fin n, ρ q = π q) (s : MPState K dim n) (ls : LawState K) (dt : K) :
    law.update (s.reindex π) (renumbered ρ ls) dt
      = (law.update s ls dt).map fun r => (r.1.reindex π, renumbered ρ r.2) := by
  have h1 := perm_symm_val hρ
  cases hl with
  | elastic E nu reset => cases ls <;> rfl
  | fluid fn pr reset =>
    cases ls <;> simp only [fluidLaw, renumbered, h1] <;> try rfl
    have : (s.reindex π).volScalar = s.volScalar := rfl
    rw [this]; split_ifs <;> rfl
  | muI fn pr reset =>
    cases ls <;> simp only [muILaw, renumbered, h1] <;> try rfl
    have : (s.reindex π).volScalar = s.volScalar := rfl
    rw [this]; split_ifs <;> rfl
  | dp fn pr reset =>
    cases ls <;> simp only [dpLaw, renumbered, h1] <;> try rfl
    rename_i e a b
    have e1 := ofFin_renumber hρ 0 fun p => (dpUpdate fn pr (s.L p) (e p) (a p) (b p) (s.density p) dt).epsE
    have e2 := ofFin_renumber hρ 0 fun p => (dpUpdate fn pr (s.L p) (e p) (a p) (b p) (s.density p) dt).epsP
    simp only [Except.map, ← e1, ← e2]
    rfl
  | mcc fn ops pr reset =>
    cases ls with
    | mcc pc r e =>
      cases r with
      | none => rfl
      | some r =>
        simp only [mccLaw, renumbered, Option.map_some, h1]
        have e1 := ofFin_renumber hρ 0 fun p => (mccUpdate fn ops pr (s.L p) (e p) (s.stress p) (pc p) (r p)
          (pr.rhoP / s.density p) dt).pc
        have e2 := ofFin_renumber hρ 0 fun p => (mccUpdate fn ops pr (s.L p) (e p) (s.stress p) (pc p) (r p)
          (pr.rhoP / s.density p) dt).epsE
        simp only [Except.map, ← e1, ← e2]
        rfl
    | _ => rfl

/-- Laws of the package under a symmetry. -/
theorem LatSym.libLaw_sym (T : LatSym K dim) (h : dim ≤ 3) {law : Law K dim (LawState K)} (hl : LibLaw law)
    {π : Equiv.Perm (Fin n)} {ρ : Equiv.Perm ℕ} (hρ : ∀ q : Fin n, ρ q = π q) :
    T.LawSym h π (fun ls => rotatedState (T.mat h) (renumbered ρ ls)) law law where
  reset := rfl
  update s ls dt := by
    have hs : SeenRotated (T.mat h) (s.reindex π) (T.mp h π s) := ⟨fun _ => rfl, fun _ => rfl, rfl, rfl, rfl⟩
    rw [laws_isotropic hl (LatSym.mat_orth T h) hs, libLaw_renumber hl hρ]
    cases hu : law.update s ls dt with
    | error e => rfl
    | ok r =>
      have := hl.onlyStress s ls dt r hu
      simp only [Except.map]
      congr 2
      rw [this]
      rfl

theorem LatSym.damp (T : LatSym K dim) (alpha m : K) (f v : Fin dim → K) (a : Fin dim) :
    dampForce alpha (T.vec f a) (T.vec v a / m) = T.vec (fun b => dampForce alpha (f b) (v b / m)) a := by
  unfold dampForce Spec.LatSym.vec
  rcases LatSym.sg_cases T (T.perm.symm a) with e | e <;> rw [e]
  · simp only [one_mul]
  · simp only [neg_one_mul, abs_neg, neg_div, sgn_neg']
    ring

theorem LatSym.vec_dotv (T : LatSym K dim) (u v : Fin dim → K) : dotv (T.vec u) (T.vec v) = dotv u v := LatSym.vec_dot T u v

theorem LatSym.contact (T : LatSym K dim) (sqrt : K → K) (v : Fin dim → K) (dist : K) (nrm w : Fin dim → K) (mu dt gap bias : K) :
    frictionalContact sqrt (T.vec v) dist (T.vec nrm) (T.vec w) mu dt gap bias
      = T.vec (frictionalContact sqrt v dist nrm w mu dt gap bias) := by
  have e1 : ∀ u w : Fin dim → K, (fun a => T.vec u a - T.vec w a) = T.vec fun a => u a - w a := fun u w => by
    funext a; exact (LatSym.vec_sub T u w a).symm
  have e4 : ∀ (u n w : Fin dim → K) (c : K), (fun a => T.vec u a + c * T.vec n a - T.vec w a)
      = T.vec fun a => u a + c * n a - w a := fun u n w c => by
    funext a; simp only [Spec.LatSym.vec]; ring
  have e5 : ∀ (u n w : Fin dim → K) (c d : K), (fun a => T.vec u a + c * T.vec n a - T.vec w a - d * T.vec n a)
      = T.vec fun a => u a + c * n a - w a - d * n a := fun u n w c d => by
    funext a; simp only [Spec.LatSym.vec]; ring
  unfold frictionalContact
  simp only [e1, LatSym.vec_dotv, e4, e5]
  funext a
  simp only [Spec.LatSym.vec]
  ring

theorem LatSym.collide (T : LatSym K dim) (sqrt : K → K) (gap dist : K) (v nrm w : Fin dim → K) (mu dt : K) :
    collideNode sqrt gap dist (T.vec v) (T.vec nrm) (T.vec w) mu dt = T.vec (collideNode sqrt gap dist v nrm w mu dt) := by
  have e1 : (fun a => T.vec v a - T.vec w a) = T.vec fun a => v a - w a := by
    funext a; exact (LatSym.vec_sub T v w a).symm
  unfold collideNode
  simp only [e1, LatSym.vec_dotv, LatSym.contact]
  split_ifs <;> rfl

variable {z : Sz} {SS : Type*} {Y : SceneSym z K dim SS (LawState K) (ForceState K dim)} {domains : Fin z.G → GridDomain K dim}

theorem getGravity_map (T : LatSym K dim) (fs : List (ForceState K dim)) (i : ℕ) :
    getGravity (fs.map T.forceState) i = (getGravity fs i).map T.vec := by
  unfold getGravity
  rw [List.getElem?_map]
  cases fs[i]? with
  | none => rfl
  | some f => cases f <;> rfl

theorem getDamping_map (T : LatSym K dim) (fs : List (ForceState K dim)) (i : ℕ) :
    getDamping (fs.map T.forceState) i = getDamping fs i := by
  unfold getDamping
  rw [List.getElem?_map]
  cases fs[i]? with
  | none => rfl
  | some f => cases f <;> rfl

theorem SceneSym.CtxSym.foldGrids {x x' : Ctx z K dim SS (LawState K) (ForceState K dim)} (hx : SceneSym.CtxSym Y domains x x')
    {f f' : Ctx z K dim SS (LawState K) (ForceState K dim) → Fin z.G → GridArrays K dim}
    (hf : ∀ x x', SceneSym.CtxSym Y domains x x' → ∀ g, LatSym.GridSym Y.T (domains g).gridSize (f x g) (f' x' g))
    (gs : List (Fin z.G)) :
    SceneSym.CtxSym Y domains (gs.foldl (fun x g => x.setGrid g (f x g)) x) (gs.foldl (fun x g => x.setGrid g (f' x g)) x') := by
  induction gs generalizing x x' with
  | nil => exact hx
  | cons g gs ih => exact ih (hx.setGrid g (hf _ _ hx g))

theorem SceneSym.mech_forces (hY : Y.force = Y.T.forceState) {x x' : Ctx z K dim SS (LawState K) (ForceState K dim)}
    (hx : SceneSym.CtxSym Y domains x x') : x'.mech.forces = x.mech.forces.map Y.T.forceState := by
  rw [hx.mech]; simp only [Spec.SceneSym.mech, hY]

/-- Forces of the package under a symmetry. -/
theorem SceneSym.libForce_sym (hY : Y.force = Y.T.forceState) {f : ForceHooks z K dim SS (LawState K) (ForceState K dim)}
    (hf : LibForce f) : SceneSym.HookSym Y domains f f := by
  cases hf with
  | gravity onGrid ps gs fIdx =>
    refine ⟨fun _ _ _ _ => rfl, fun x x' dt t hx => ?_, fun x x' dt t hx => ?_, fun x x' dt t hx => .ok hx⟩
    · have e := SceneSym.mech_forces hY hx
      simp only [gravityForce, e, getGravity_map]
      split_ifs
      · exact .ok hx
      · rw [List.getElem?_map]
        cases x.mech.forces[fIdx]? with
        | none => exact .error _
        | some f => exact .ok hx
      · cases getGravity x.mech.forces fIdx with
        | error e => exact .error _
        | ok g => exact .error _
    · have e := SceneSym.mech_forces hY hx
      simp only [gravityForce, e, getGravity_map]
      split_ifs
      · exact .ok hx
      · cases getGravity x.mech.forces fIdx with
        | error e => exact .error _
        | ok g =>
          refine .ok (hx.foldGrids (f := fun x k => gravityGrid g (x.cache.grids k))
            (f' := fun x k => gravityGrid (Y.T.vec g) (x.cache.grids k)) (fun x x' hx k => ?_) gs)
          have hg := hx.grids k
          refine ⟨hg.mass, hg.moment, hg.momentNt, fun j hj => ?_⟩
          funext a
          simp only [gravityGrid, hg.force j hj, hg.mass j hj, Spec.LatSym.vec]
          ring
  | damping onGrid ps gs fIdx =>
    refine ⟨fun _ _ _ _ => rfl, fun x x' dt t hx => ?_, fun x x' dt t hx => ?_, fun x x' dt t hx => .ok hx⟩
    · have e := SceneSym.mech_forces hY hx
      simp only [dampingForce, e, getDamping_map]
      split_ifs
      · exact .ok hx
      · cases getDamping x.mech.forces fIdx with
        | error e => exact .error _
        | ok al =>
          refine ExSym.foldE (R := SceneSym.CtxSym Y domains) (fun x x' p hx => ?_) ps hx
          have hb := hx.body p
          rw [hb]
          cases x.world.bodies p with
          | rigid r => exact .error _
          | deformable s =>
            refine .ok ?_
            have h1 := hx.setBody p (.deformable (dampingBody al s))
            have h2 : dampingBody al (Y.T.mp Y.h (Y.pts p) s) = Y.T.mp Y.h (Y.pts p) (dampingBody al s) := by
              unfold dampingBody Spec.LatSym.mp
              simp only [MPState.mk.injEq, true_and, and_true]
              funext q a
              have := LatSym.damp Y.T al 1 (s.force ((Y.pts p).symm q)) (s.velocity ((Y.pts p).symm q)) a
              simpa only [div_one] using this
            rw [h2]
            exact h1
    · have e := SceneSym.mech_forces hY hx
      simp only [dampingForce, e, getDamping_map]
      split_ifs
      · exact .ok hx
      · cases getDamping x.mech.forces fIdx with
        | error e => exact .error _
        | ok al =>
          refine .ok (hx.foldGrids (f := fun x k => dampingGrid al (x.cache.grids k))
            (f' := fun x k => dampingGrid al (x.cache.grids k)) (fun x x' hx k => ?_) gs)
          have hg := hx.grids k
          refine ⟨hg.mass, hg.moment, hg.momentNt, fun j hj => ?_⟩
          funext a
          simp only [dampingGrid, hg.force j hj, hg.mass j hj, hg.moment j hj]
          exact LatSym.damp Y.T al _ _ _ a
  | sdfCollider fn sdf gs gap base =>
    refine ⟨fun _ _ _ _ => rfl, fun x x' dt t hx => .ok hx, fun x x' dt t hx => .ok hx, fun x x' dt t hx => ?_⟩
    cases sdf with
    | none => exact .ok hx
    | some d =>
      refine .ok (hx.foldGrids (f := fun x k => collideGrid fn.sqrt gap base dt (x.cache.nodeGeoms k d) (x.cache.grids k))
        (f' := fun x k => collideGrid fn.sqrt gap base dt (x.cache.nodeGeoms k d) (x.cache.grids k)) (fun x x' hx k => ?_) gs)
      have hg := hx.grids k
      have hn := hx.nodeGeoms k d
      refine ⟨hg.mass, hg.moment, fun j hj => ?_, hg.force⟩
      funext a
      simp only [collideGrid, hg.mass j hj, hg.momentNt j hj, hn.dists j hj, hn.normals j hj, hn.wallVels j hj, hn.friction j hj]
      have e : ∀ c : K, (fun b => Y.T.vec ((x.cache.grids k).momentNt j) b * c) = Y.T.vec fun b => (x.cache.grids k).momentNt j b * c := by
        intro c; funext b; simp only [Spec.LatSym.vec]; ring
      rw [e, LatSym.collide]
      simp only [Spec.LatSym.vec]
      ring
  | gridContact =>
    exact ⟨fun _ _ _ _ => rfl, fun x x' dt t hx => .ok hx, fun x x' dt t hx => .ok hx, fun x x' dt t hx => .error _⟩

end
end Hydrax
