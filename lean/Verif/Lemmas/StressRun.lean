import Verif.Props.Symmetry

/-!
# Invariants of the stresses of a scene

What every law of a scene keeps for the stress of a point, any number of steps of either solver keeps.
-/

namespace Hydrax

section
variable {z : Sz} {K : Type*} [Field K] [LinearOrder K] [FloorRing K] {dim : ℕ} {SS : Type*}
  {fn : MathFns K} {sv : Solver z K dim SS (LawState K) (ForceState K dim)}

/-- Every stress of the scene is symmetric and satisfies `P`, and the tensors in the law states are symmetric. -/
def SceneAll (P : Mat3 K → Prop) (w : World z K dim SS) (m : Mech z K (LawState K) (ForceState K dim)) : Prop :=
  (∀ p s, w.bodies p = .deformable s → ∀ q, (s.stress q).IsSymm ∧ P (s.stress q)) ∧ ∀ c, (m.laws c).Symm

/-- Any number of steps of either solver on any scene keeps what the laws keep. -/
theorem stress_invariant_run (P : Mat3 K → Prop) (hL : ∀ c, LibLaw (sv.laws c))
    (hP : ∀ c n (s : MPState K dim n) ls dt r, (sv.laws c).update s ls dt = .ok r →
      (∀ p, (s.stress p).IsSymm ∧ P (s.stress p)) → ls.Symm → ∀ p, P (r.1.stress p)) (hf : ∀ f ∈ sv.forces, LibForce f)
    {call} (hcall : IsSolverCall fn sv call) (k : ℕ)
    (st st' : SimState z K dim SS (LawState K) (ForceState K dim))
    (h : runSteps call k st = .ok st') (h0 : SceneAll P st.world st.mech) :
    SceneAll P st'.world st'.mech := by
  refine runSteps_rel (R := fun st st' : SimState z K dim SS (LawState K) (ForceState K dim) =>
    SceneAll P st.world st.mech → SceneAll P st'.world st'.mech) (fun _ h => h)
    (fun _ _ _ h1 h2 h => h2 (h1 h)) ?_ k st st' h h0
  clear h h0 st st'
  intro st st' h h0
  obtain ⟨w, x0, x2, x3, x4, g2p, hw, h1, h2, hi, hg, h3, h4, h5, h6, h7⟩ := call_stages hf hcall h
  rw [h5, h6]
  -- stresses before the law stage are those at the start
  have hpre := (preP2g_lib (R := fun n (s s' : MPState K dim n) => s'.stress = s.stress)
    (fun _ _ _ => rfl) (fun _ _ => rfl) (fun _ _ _ _ a b => b.trans a) hf _ _ _ _ h1).1.1
  have hres := reset_rel (sv := sv) (R := fun n (s s' : MPState K dim n) => s'.stress = s.stress)
    (fun _ _ => rfl) (fun _ _ => rfl) w
  have i2 : SceneAll P x2.world x2.mech := by
    refine ⟨fun p s hs q => ?_, by rw [h7]; exact h0.2⟩
    have r := Body.Rel.trans (R := fun n (s s' : MPState K dim n) => s'.stress = s.stress)
      (fun _ _ _ _ a b => b.trans a) (hres p) (hpre p)
    rw [h2] at hs
    rw [hw, hs] at r
    cases hb : st.world.bodies p with
    | rigid r' => rw [hb] at r; exact absurd r id
    | deformable s' =>
      rw [hb] at r
      have e : s.stress = s'.stress := r
      rw [e]; exact h0.1 p s' hb q
  have i3 : SceneAll P x3.world x3.mech := by
    refine foldE_inv (I := fun y : Ctx z K dim SS (LawState K) (ForceState K dim) =>
      SceneAll P y.world y.mech) sv.couplings x2 x3 i2 ?_ h3
    intro c _ y y' hI hy
    rcases hg with rfl | ⟨pr, rfl⟩
    · cases hs : c.skip with
      | true => rw [g2pCoupling_skip hs hy]; exact hI
      | false =>
        obtain ⟨ker, ic, s, -, hb, rfl⟩ := g2pCoupling_ok hs hy
        refine ⟨fun p s' hs' q => ?_, hI.2⟩
        by_cases hq : p = c.p
        · subst hq
          rw [setBody_self] at hs'
          cases hs'
          exact hI.1 _ s hb q
        · rw [setBody_ne _ hq] at hs'
          exact hI.1 _ s' hs' q
    · cases hs : c.skip with
      | true => rw [aflipG2pCoupling_skip hs hy]; exact hI
      | false =>
        obtain ⟨ker, ic, s, r, hS, -, hb, hr, rfl⟩ := aflipG2pCoupling_ok hs hy
        refine ⟨fun p s' hs' q => ?_, hI.2⟩
        by_cases hq : p = c.p
        · subst hq
          have hs' := (setBody_self y c.p (.deformable r.1)).symm.trans hs'
          cases hs'
          rw [aflipG2pBody_ok hr]
          exact hI.1 _ s hb q
        · exact hI.1 _ s' ((setBody_ne y hq (.deformable r.1)).symm.trans hs') q
  refine foldE_inv (I := fun y : Ctx z K dim SS (LawState K) (ForceState K dim) =>
      SceneAll P y.world y.mech) sv.couplings x3 x4 i3 ?_ h4
  intro c _ y y' hI hy
  cases hs : c.skip with
  | true => rw [lawCoupling_skip hs hy]; exact hI
  | false =>
    obtain ⟨s, r, hb, hr, rfl⟩ := lawCoupling_ok hs hy
    obtain ⟨a0, a2⟩ := libLaw_symm (hL c.c) s _ _ r hr (fun q => (hI.1 _ s hb q).1) (hI.2 c.c)
    have a1 : ∀ q, (r.1.stress q).IsSymm ∧ P (r.1.stress q) := fun q =>
      ⟨a0 q, hP _ _ s _ _ r hr (hI.1 _ s hb) (hI.2 c.c) q⟩
    refine ⟨fun p s' hs' q => ?_, fun d => ?_⟩
    · by_cases hq : p = c.p
      · subst hq
        have hs' := (setBody_self y c.p
          (.deformable (removeShear fn (sv.laws c.c).requiresFReset r.1))).symm.trans hs'
        cases hs'
        unfold removeShear
        split_ifs <;> exact a1 q
      · exact hI.1 _ s' ((setBody_ne y hq
          (.deformable (removeShear fn (sv.laws c.c).requiresFReset r.1))).symm.trans hs') q
    · by_cases hd : d = c.c
      · subst hd
        change (Function.update y.mech.laws c.c r.2 c.c).Symm
        rw [Function.update_self]; exact a2
      · change (Function.update y.mech.laws c.c r.2 d).Symm
        rw [Function.update_of_ne hd]; exact hI.2 d

end
end Hydrax
