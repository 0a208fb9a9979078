import Verif.Props.Invariants
import Verif.Lemmas.SceneWall
import Verif.Model.ElementTest

/-!
# One body inside a call of a solver; laws at one point (helper lemmas)
-/

set_option linter.unusedSectionVars false

namespace Hydrax
open Spec

section
variable {K : Type*} [Field K] [LinearOrder K] {dim n : ℕ}

/-- The state of a law at point number `i` alone. -/
def Spec.lawAt (ls : LawState K) (i : ℕ) : LawState K :=
  match ls with
  | .elastic r => .elastic fun _ => r i
  | .density r => .density fun _ => r i
  | .dp e p p0 => .dp (fun _ => e i) (fun _ => p i) (fun _ => p0 i)
  | .mcc pc r e => .mcc (fun _ => pc i) (r.map fun r _ => r i) (fun _ => e i)

/-- A body of one point with the given mass, volume, velocity gradient and stress; the other fields are those of `m`. -/
def Spec.onePoint (m : MPState K dim 1) (mass vol : K) (L σ : Mat3 K) : MPState K dim 1 :=
  { m with mass := fun _ => mass, volume := fun _ => vol, L := fun _ => L, stress := fun _ => σ, volScalar := false }

/-- What a law tells about one point: its stress and the state of the law there. -/
def Spec.answer (r : Except PyErr (MPState K dim n × LawState K)) (p : Fin n) : Except PyErr (Mat3 K × LawState K) :=
  r.map fun r => (r.1.stress p, lawAt r.2 p)

/-- The law does not tell volume `v` and velocity gradient `L` from `v'` and `L'`. -/
def Spec.Alike (law : Law K dim (LawState K)) (mass v : K) (L : Mat3 K) (v' : K) (L' : Mat3 K) : Prop :=
  ∀ (m : MPState K dim 1) (σ : Mat3 K) (ls : LawState K) (dt : K),
    answer (law.update (onePoint m mass v L σ) ls dt) 0 = answer (law.update (onePoint m mass v' L' σ) ls dt) 0

/-- The laws of the package act point by point: what a law says about a point of a body it says about that point alone. -/
theorem libLaw_point {law : Law K dim (LawState K)} (hl : LibLaw law) (s : MPState K dim n) (hv : s.volScalar = false) (ls e : LawState K) (p : Fin n)
    (he : lawAt e 0 = lawAt ls p) (dt : K) (m : MPState K dim 1) :
    answer (law.update s ls dt) p = answer (law.update (onePoint m (s.mass p) (s.volume p) (s.L p) (s.stress p)) e dt) 0 := by
  cases hl with
  | elastic E nu reset =>
    simp only [answer, elasticLaw, Except.map, onePoint]
    rw [← he]
    rfl
  | fluid fn pr reset =>
    cases ls <;> cases e <;> simp only [lawAt, reduceCtorEq] at he <;>
      simp only [answer, fluidLaw, Except.map, onePoint, hv, Bool.false_eq_true, ↓reduceIte]
    simp only [LawState.density.injEq] at he
    have h0 := congrFun he 0
    simp only [lawAt, Fin.val_zero, h0]
  | muI fn pr reset =>
    cases ls <;> cases e <;> simp only [lawAt, reduceCtorEq] at he <;>
      simp only [answer, muILaw, Except.map, onePoint, hv, Bool.false_eq_true, ↓reduceIte]
    simp only [LawState.density.injEq] at he
    have h0 := congrFun he 0
    simp only [lawAt, Fin.val_zero, h0]
  | dp fn pr reset =>
    cases ls <;> cases e <;> simp only [lawAt, reduceCtorEq] at he <;>
      simp only [answer, dpLaw, Except.map, onePoint]
    simp only [LawState.dp.injEq] at he
    obtain ⟨h1, h2, h3⟩ := he
    have h1 := congrFun h1 0
    have h2 := congrFun h2 0
    have h3 := congrFun h3 0
    simp [lawAt, h1, h2, h3, ofFin, MPState.density]
  | mcc fn ops pr reset =>
    cases ls with
    | mcc pc r ep =>
      cases e with
      | mcc pc' r' ep' =>
        simp only [lawAt, LawState.mcc.injEq] at he
        obtain ⟨h1, h2, h3⟩ := he
        have h1 := congrFun h1 0
        have h3 := congrFun h3 0
        cases r with
        | none =>
          cases r' with
          | none => rfl
          | some r' => simp at h2
        | some r =>
          cases r' with
          | none => simp at h2
          | some r' =>
            simp only [Option.map_some, Option.some.injEq] at h2
            have h2 := congrFun h2 0
            simp [answer, mccLaw, Except.map, onePoint, lawAt, h1, h2, h3, ofFin, MPState.density]
      | _ => simp [lawAt] at he
    | elastic r => cases e <;> first | rfl | simp [lawAt] at he
    | density r => cases e <;> first | rfl | simp [lawAt] at he
    | dp a b c => cases e <;> first | rfl | simp [lawAt] at he

theorem alike_elastic (E nu : K) (reset : Bool) (mass v v' : K) (L : Mat3 K) :
    Alike (elasticLaw E nu reset : Law K dim (LawState K)) mass v L v' L ∧
    Alike (elasticLaw E nu reset : Law K dim (LawState K)) mass v L.transpose v' L := by
  refine ⟨fun m σ ls dt => rfl, fun m σ ls dt => ?_⟩
  simp only [answer, elasticLaw, Except.map, onePoint, elasticStress, Matrix.transpose_transpose, add_comm L.transpose L]

theorem alike_fluid (fn : MathFns K) (pr : FluidParams K) (reset : Bool) (mass v : K) (L : Mat3 K) :
    Alike (fluidLaw fn pr reset : Law K dim (LawState K)) mass v L.transpose v L := by
  intro m σ ls dt
  cases ls <;> simp only [answer, fluidLaw, Except.map, onePoint, fluidStress, Bool.false_eq_true, ↓reduceIte, Matrix.transpose_transpose, add_comm L.transpose L]

theorem alike_muI (fn : MathFns K) (pr : MuIParams K) (reset : Bool) (mass v : K) (L : Mat3 K) :
    Alike (muILaw fn pr reset : Law K dim (LawState K)) mass v L.transpose v L := by
  intro m σ ls dt
  cases ls <;> simp only [answer, muILaw, Except.map, onePoint, muIStress, Bool.false_eq_true, ↓reduceIte, Matrix.transpose_transpose, add_comm L.transpose L]

/-- Drucker-Prager sees the density only as a limit of cohesion. -/
theorem alike_dp (fn : MathFns K) (pr : DPParams K) (reset : Bool) (mass v v' : K) (L : Mat3 K)
    (h : mass / (v + 1 / 10 ^ 16) ≥ pr.rho0 ↔ mass / (v' + 1 / 10 ^ 16) ≥ pr.rho0) :
    Alike (dpLaw fn pr reset : Law K dim (LawState K)) mass v L v' L := by
  intro m σ ls dt
  cases ls with
  | dp a b c => simp only [answer, dpLaw, Except.map, onePoint, MPState.density, dpUpdate, h]
  | _ => rfl

/-- Cam-Clay sees the specific volume only as a limit of cohesion. -/
theorem alike_mcc (fn : MathFns K) (ops : NewtonOps K) (pr : MCCParams K) (reset : Bool) (mass v v' : K) (L : Mat3 K)
    (h : pr.rhoP / (mass / (v + 1 / 10 ^ 16)) ≤ pr.N * (999999 / 1000000) ↔
      pr.rhoP / (mass / (v' + 1 / 10 ^ 16)) ≤ pr.N * (999999 / 1000000)) :
    Alike (mccLaw fn ops pr reset : Law K dim (LawState K)) mass v L v' L := by
  intro m σ ls dt
  cases ls with
  | mcc pc r e =>
    cases r with
    | none => rfl
    | some r => simp only [answer, mccLaw, Except.map, onePoint, MPState.density, mccUpdate, h]
  | _ => rfl

end

section
variable {z : Sz} {K : Type*} [Field K] [LinearOrder K] [IsStrictOrderedRing K] [FloorRing K] {dim : ℕ} {SS LS : Type*}
  {fn : MathFns K} {sv : Solver z K dim SS LS (ForceState K dim)}

/-- No other active coupling shares the body or the law of `c`. -/
def Spec.Alone (cs : List (Coupling z)) (c : Coupling z) : Prop :=
  ∃ l1 l2, cs = l1 ++ c :: l2 ∧ ∀ b ∈ l1 ++ l2, b.skip = false → b.p ≠ c.p ∧ b.c ≠ c.c

/-- The grid-to-particle update of the tensors of a point. -/
def Spec.Deformed (dt : K) {n : ℕ} (s t : MPState K dim n) : Prop :=
  t.mass = s.mass ∧ t.volume0 = s.volume0 ∧ t.stress = s.stress ∧ t.volScalar = decide (n = 1) ∧
  (∀ p, t.F p = if dim = 2 then set22 ((1 - dt • t.L p) * s.F p) 1 else (1 - dt • t.L p) * s.F p) ∧
  (∀ p, t.volume p = (t.F p).det * t.volume0 p) ∧
  (dim = 2 → ∀ p, Planar (t.L p) ∧ t.L p 2 2 = 0)

theorem g2p_deformed {n : ℕ} (ker : Kernel) (dom : GridDomain K dim) (pos : Fin n → Fin dim → K) (s r : MPState K dim n)
    (gr : GridArrays K dim) (dt : K)
    (h : (∃ alpha ghost, r = g2pBody alpha dt (compute ker dom pos) ghost gr s) ∨
      ∃ sqrt pr cell Bp, aflipG2pBody sqrt pr cell dt (compute ker dom pos) gr s = .ok (r, Bp)) : Deformed dt s r := by
  have hpl : dim = 2 → ∀ p, Planar (r.L p) ∧ r.L p 2 2 = 0 := by
    intro hd p
    subst hd
    have := plane_strain_g2p ker dom pos s r gr dt h p
    exact ⟨this.2.2.1, this.1⟩
  refine ⟨?_, ?_, ?_, ?_, ?_, ?_, hpl⟩
  all_goals
    clear hpl
    rcases h with ⟨alpha, ghost, rfl⟩ | ⟨sqrt, pr, cell, Bp, h⟩
    · first | rfl | intro p; rfl
    · have := congrArg Prod.fst (aflipG2pBody_ok h)
      simp only at this
      subst this
      first | rfl | intro p; rfl

/-- One call of either solver, seen by one body: the law receives the deformed points and its answer is stored. -/
theorem call_point (hf : ∀ f ∈ sv.forces, LibForce f) {call} (hcall : IsSolverCall fn sv call)
    {st st' : SimState z K dim SS LS (ForceState K dim)} (h : call st = .ok st') {c : Coupling z}
    (hs : c.skip = false) (hal : Alone sv.couplings c) :
    ∃ s t r, st.world.bodies c.p = .deformable s ∧ Deformed st.dt s t ∧
      (sv.laws c.c).update t (st.mech.laws c.c) st.dt = .ok r ∧
      st'.world.bodies c.p = .deformable (removeShear fn (sv.laws c.c).requiresFReset r.1) ∧ st'.mech.laws c.c = r.2 := by
  obtain ⟨w, x0, x2, x3, x4, g2p, hw0, hp, h20, hi, hg2, h3, h4, hw, hm, hm2⟩ := call_stages hf hcall h
  obtain ⟨l1, l2, hcs, hoth⟩ := hal
  have hok : CacheOk x2.cache := by
    intro p g v hv
    rw [hi] at hv
    exact buildCache_ok fn sv _ _ p g v hv
  have hrel : Body.Rel (fun n (s t : MPState K dim n) => t.mass = s.mass ∧ t.volume0 = s.volume0 ∧ t.stress = s.stress ∧ t.F = s.F)
      (st.world.bodies c.p) (x2.world.bodies c.p) := by
    have a1 := reset_rel (sv := sv) (R := fun n (s t : MPState K dim n) => t.mass = s.mass ∧ t.volume0 = s.volume0 ∧ t.stress = s.stress ∧ t.F = s.F)
      (fun _ _ => ⟨rfl, rfl, rfl, rfl⟩) (fun _ _ => ⟨rfl, rfl, rfl, rfl⟩) w c.p
    have a2 := (preP2g_lib (R := fun n (s t : MPState K dim n) => t.mass = s.mass ∧ t.volume0 = s.volume0 ∧ t.stress = s.stress ∧ t.F = s.F)
      (fun _ _ _ => ⟨rfl, rfl, rfl, rfl⟩) (fun _ _ => ⟨rfl, rfl, rfl, rfl⟩)
      (fun _ _ _ _ h1 h2 => ⟨h2.1.trans h1.1, h2.2.1.trans h1.2.1, h2.2.2.1.trans h1.2.2.1, h2.2.2.2.trans h1.2.2.2⟩) hf _ _ _ _ hp).1.1 c.p
    rw [h20, ← hw0]
    exact a1.trans (fun _ _ _ _ h1 h2 => ⟨h2.1.trans h1.1, h2.2.1.trans h1.2.1, h2.2.2.1.trans h1.2.2.1, h2.2.2.2.trans h1.2.2.2⟩) a2
  -- grid to particles
  have e3 : ∃ s t, x2.world.bodies c.p = .deformable s ∧ Deformed st.dt s t ∧ x3.world.bodies c.p = .deformable t ∧
      x3.mech.laws = x2.mech.laws := by
    rw [hcs] at h3
    obtain ⟨y1, g1, g2⟩ := foldE_append _ _ h3
    obtain ⟨y2, g2, g3⟩ := foldE_cons_ok.mp g2
    have keep : ∀ b ∈ l1 ++ l2, ∀ y y' : Ctx z K dim SS LS (ForceState K dim), g2p y b = .ok y' →
        y'.world.bodies c.p = y.world.bodies c.p ∧ y'.mech.laws = y.mech.laws ∧ y'.cache = y.cache := by
      intro b hb y y' hy
      rcases hg2 with rfl | ⟨pr, rfl⟩
      · cases hsb : b.skip with
        | true => rw [g2pCoupling_skip hsb hy]; exact ⟨rfl, rfl, rfl⟩
        | false =>
          obtain ⟨ker, ic, s, -, -, rfl⟩ := g2pCoupling_ok hsb hy
          exact ⟨setBody_ne _ (hoth b hb hsb).1.symm _, rfl, rfl⟩
      · cases hsb : b.skip with
        | true => rw [aflipG2pCoupling_skip hsb hy]; exact ⟨rfl, rfl, rfl⟩
        | false =>
          obtain ⟨ker, ic, s, r, hS, -, -, -, rfl⟩ := aflipG2pCoupling_ok hsb hy
          exact ⟨setBody_ne _ (hoth b hb hsb).1.symm _, rfl, rfl⟩
    have k1 := foldE_rel (R := fun y y' : Ctx z K dim SS LS (ForceState K dim) =>
        y'.world.bodies c.p = y.world.bodies c.p ∧ y'.mech.laws = y.mech.laws ∧ y'.cache = y.cache)
      (fun _ => ⟨rfl, rfl, rfl⟩) (fun _ _ _ h1 h2 => ⟨h2.1.trans h1.1, h2.2.1.trans h1.2.1, h2.2.2.trans h1.2.2⟩) l1 _ _
      (fun b hb => keep b (List.mem_append_left _ hb)) g1
    have k2 := foldE_rel (R := fun y y' : Ctx z K dim SS LS (ForceState K dim) =>
        y'.world.bodies c.p = y.world.bodies c.p ∧ y'.mech.laws = y.mech.laws ∧ y'.cache = y.cache)
      (fun _ => ⟨rfl, rfl, rfl⟩) (fun _ _ _ h1 h2 => ⟨h2.1.trans h1.1, h2.2.1.trans h1.2.1, h2.2.2.trans h1.2.2⟩) l2 _ _
      (fun b hb => keep b (List.mem_append_right _ hb)) g3
    rcases hg2 with rfl | ⟨pr, rfl⟩
    · obtain ⟨ker, ic, s, hic, hb, rfl⟩ := g2pCoupling_ok hs g2
      rw [k1.2.2] at hic
      obtain ⟨dom, pos, hcp⟩ := hok _ _ _ hic
      simp only at hcp
      refine ⟨s, _, k1.1.symm.trans hb, ?_, k2.1.trans (setBody_self _ _ _), k2.2.1.trans k1.2.1⟩
      exact g2p_deformed ker dom pos s _ _ _ (.inl ⟨_, _, by rw [hcp]⟩)
    · obtain ⟨ker, ic, s, r, hS, hic, hb, hr, rfl⟩ := aflipG2pCoupling_ok hs g2
      rw [k1.2.2] at hic
      obtain ⟨dom, pos, hcp⟩ := hok _ _ _ hic
      simp only at hcp
      refine ⟨s, r.1, k1.1.symm.trans hb, ?_, k2.1.trans (setBody_self _ _ _), k2.2.1.trans k1.2.1⟩
      rw [hcp] at hr
      exact g2p_deformed ker dom pos s _ _ _ (.inr ⟨_, _, _, _, hr⟩)
  obtain ⟨s, t, hb2, hd, hb3, hl3⟩ := e3
  -- constitutive laws
  rw [hcs] at h4
  obtain ⟨y1, g1, g2⟩ := foldE_append _ _ h4
  obtain ⟨y2, g2, g3⟩ := foldE_cons_ok.mp g2
  have keep : ∀ b ∈ l1 ++ l2, ∀ y y' : Ctx z K dim SS LS (ForceState K dim), lawCoupling fn sv.laws st.dt y b = .ok y' →
      y'.world.bodies c.p = y.world.bodies c.p ∧ y'.mech.laws c.c = y.mech.laws c.c := by
    intro b hb y y' hy
    cases hsb : b.skip with
    | true => rw [lawCoupling_skip hsb hy]; exact ⟨rfl, rfl⟩
    | false =>
      obtain ⟨s, r, -, -, rfl⟩ := lawCoupling_ok hsb hy
      exact ⟨setBody_ne _ (hoth b hb hsb).1.symm _, Function.update_of_ne (hoth b hb hsb).2.symm _ _⟩
  have k1 := foldE_rel (R := fun y y' : Ctx z K dim SS LS (ForceState K dim) =>
      y'.world.bodies c.p = y.world.bodies c.p ∧ y'.mech.laws c.c = y.mech.laws c.c)
    (fun _ => ⟨rfl, rfl⟩) (fun _ _ _ h1 h2 => ⟨h2.1.trans h1.1, h2.2.trans h1.2⟩) l1 _ _
    (fun b hb => keep b (List.mem_append_left _ hb)) g1
  have k2 := foldE_rel (R := fun y y' : Ctx z K dim SS LS (ForceState K dim) =>
      y'.world.bodies c.p = y.world.bodies c.p ∧ y'.mech.laws c.c = y.mech.laws c.c)
    (fun _ => ⟨rfl, rfl⟩) (fun _ _ _ h1 h2 => ⟨h2.1.trans h1.1, h2.2.trans h1.2⟩) l2 _ _
    (fun b hb => keep b (List.mem_append_right _ hb)) g3
  obtain ⟨t', r, hbt, hr, rfl⟩ := lawCoupling_ok hs g2
  have htt : t' = t := by
    have := (hbt.symm.trans k1.1).trans hb3
    exact Body.deformable.inj this
  subst htt
  rw [hb2] at hrel
  cases hst : st.world.bodies c.p with
  | rigid q => rw [hst] at hrel; exact absurd hrel (by simp [Body.Rel])
  | deformable s0 =>
    rw [hst] at hrel
    obtain ⟨r1, r2, r3, r4⟩ := hrel
    obtain ⟨d1, d2, d3, d4, d5, d6, d7⟩ := hd
    refine ⟨s0, t', r, rfl, ⟨d1.trans r1, d2.trans r2, d3.trans r3, d4, ?_, d6, d7⟩, ?_, ?_, ?_⟩
    · intro p; rw [← r4]; exact d5 p
    · rw [k1.2, hl3, hm2] at hr
      exact hr
    · rw [hw, k2.1]
      exact setBody_self _ _ _
    · rw [hm, k2.2]
      exact Function.update_self _ _ _

end
end Hydrax
