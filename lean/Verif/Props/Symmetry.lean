import Verif.Lemmas.SceneEst
import Verif.Lemmas.ExampleScene
import Mathlib.LinearAlgebra.Matrix.Symmetric
import Mathlib.Tactic.Abel

/-!
# Property C31: stresses stay symmetric
-/

set_option linter.unusedSectionVars false

namespace Hydrax

section
variable {K : Type*} [Field K] [LinearOrder K]

theorem isoT_symm (c : K) : (isoT c).IsSymm := by
  unfold isoT; exact Matrix.IsSymm.smul (Matrix.isSymm_one) c

theorem symTensor_symm (L : Mat3 K) : (symTensor L).IsSymm := by
  unfold symTensor Matrix.IsSymm
  rw [Matrix.transpose_smul, Matrix.transpose_add, Matrix.transpose_transpose, add_comm]

/-- The Jaumann correction keeps symmetric tensors symmetric. -/
theorem jaumann_symm {T : Mat3 K} (hT : T.IsSymm) (L : Mat3 K) (dt : K) :
    (jaumann T (spinTensor L) dt).IsSymm := by
  unfold jaumann
  refine hT.add (Matrix.IsSymm.smul ?_ _)
  unfold Matrix.IsSymm at *
  have hW : (spinTensor L).transpose = -spinTensor L := by
    unfold spinTensor
    rw [Matrix.transpose_smul, Matrix.transpose_sub, Matrix.transpose_transpose, ← smul_neg, neg_sub]
  rw [Matrix.transpose_sub, Matrix.transpose_mul, Matrix.transpose_mul, hT, hW]
  simp only [mul_neg, neg_mul, sub_neg_eq_add]
  abel

example (L : Mat3 ℚ) : (jaumann (!![1, 2, 0; 2, 5, 0; 0, 0, 3] : Mat3 ℚ) (spinTensor L) (1 / 10)).IsSymm :=
  jaumann_symm (by decide +kernel) L _

theorem devStrainV_symm {e : Mat3 K} (he : e.IsSymm) (v : K) : (devStrainV e v).IsSymm := by
  unfold devStrainV
  exact he.sub (Matrix.isSymm_one.smul _)

theorem devStressP_symm {e : Mat3 K} (he : e.IsSymm) (v : K) : (devStressP e v).IsSymm := by
  unfold devStressP
  exact he.sub (Matrix.isSymm_one.smul _)

/-- **C31** (elastic). -/
theorem elasticStress_symm (E nu : K) (L σ : Mat3 K) (dt : K) (h : σ.IsSymm) :
    (elasticStress E nu L σ dt).IsSymm := by
  unfold elasticStress
  exact (h.add (isoT_symm _)).add (((symTensor_symm L).smul _).smul _)

example (L : Mat3 ℚ) : (elasticStress 1000 (1 / 4) L (!![1, 2, 0; 2, 5, 0; 0, 0, 3] : Mat3 ℚ) (1 / 10)).IsSymm :=
  elasticStress_symm _ _ L _ _ (by decide +kernel)

/-- **C31** (Newtonian fluid): symmetric whatever the state was. -/
theorem fluidStress_symm (fn : MathFns K) (pr : FluidParams K) (L : Mat3 K) (m v r : K) :
    (fluidStress fn pr L m v r).IsSymm := by
  unfold fluidStress
  exact (isoT_symm _).add (((symTensor_symm L).sub (Matrix.isSymm_one.smul _)).smul _)

/-- **C31** (mu(I)): symmetric whatever the state was. -/
theorem muIStress_symm (fn : MathFns K) (pr : MuIParams K) (L : Mat3 K) (m v r : K) :
    (muIStress fn pr L m v r).IsSymm := by
  unfold muIStress
  simp only
  split_ifs
  · exact (isoT_symm _).add (((symTensor_symm L).sub (Matrix.isSymm_one.smul _)).smul _)
  · exact Matrix.isSymm_zero

/-- **C31** (Drucker-Prager). -/
theorem dpUpdate_symm (fn : MathFns K) (pr : DPParams K) (L e : Mat3 K) (epsP p0 rho dt : K)
    (h : e.IsSymm) : (dpUpdate fn pr L e epsP p0 rho dt).stress.IsSymm ∧
      (dpUpdate fn pr L e epsP p0 rho dt).epsE.IsSymm := by
  have ht : (dpTrial fn pr L e epsP p0 dt).epsETr.IsSymm :=
    (jaumann_symm h L dt).add ((symTensor_symm L).smul _)
  have hs : (dpTrial fn pr L e epsP p0 dt).sTr.IsSymm := (devStrainV_symm ht _).smul _
  unfold dpUpdate
  simp only
  split_ifs
  · exact ⟨isoT_symm _, isoT_symm _⟩
  · exact ⟨(hs.smul _).add (isoT_symm _), ((hs.smul _).smul _).add (isoT_symm _)⟩
  · exact ⟨hs.add (isoT_symm _), ht⟩
  · exact ⟨Matrix.isSymm_zero, Matrix.isSymm_zero⟩

example (fn : MathFns ℚ) (pr : DPParams ℚ) (L : Mat3 ℚ) :
    (dpUpdate fn pr L (!![1 / 100, 1 / 50, 0; 1 / 50, 0, 0; 0, 0, 0] : Mat3 ℚ) 0 1000 2000 (1 / 10)).stress.IsSymm :=
  (dpUpdate_symm fn pr L _ _ _ _ _ (by decide +kernel)).1

/-- **C31** (modified Cam-Clay), whatever the Newton iteration does. -/
theorem mccUpdate_symm (fn : MathFns K) (ops : NewtonOps K) (pr : MCCParams K) (L e σ : Mat3 K) (pc : K)
    (σref : Mat3 K) (v dt : K) (he : e.IsSymm) (hσ : σ.IsSymm) (href : σref.IsSymm) :
    (mccUpdate fn ops pr L e σ pc σref v dt).stress.IsSymm ∧
      (mccUpdate fn ops pr L e σ pc σref v dt).epsE.IsSymm := by
  have hs : (mccTrial fn pr L e σ pc σref dt).sTr.IsSymm :=
    (((devStrainV_symm ((symTensor_symm L).smul _) _).smul _).add
      (devStressP_symm (jaumann_symm hσ L dt) _))
  have hr : (mccTrial fn pr L e σ pc σref dt).epsERot.IsSymm := jaumann_symm he L dt
  have h0 : (mccTrial fn pr L e σ pc σref dt).s0.IsSymm := devStressP_symm href _
  have hd : (mccTrial fn pr L e σ pc σref dt).deps.IsSymm := (symTensor_symm L).smul _
  unfold mccUpdate
  simp only
  split_ifs
  · have hb : ∀ x, (mccResiduals fn pr (mccTrial fn pr L e σ pc σref dt) pc x).s.IsSymm :=
      fun x => hs.smul _
    have hp : ∀ A B : Mat3 K, A.IsSymm → B.IsSymm →
        (Matrix.IsSymm (fun i j => if A i j ≠ 0 then A i j else B i j : Mat3 K)) := by
      intro A B hA hB
      refine Matrix.IsSymm.ext fun i j => ?_
      rw [hA.apply i j, hB.apply i j]
    have hS := hp _ _ (hb (mccNewton ops (fun x => (mccResiduals fn pr
      (mccTrial fn pr L e σ pc σref dt) pc x).res) 10
      ![0, fn.log (if (mccTrial fn pr L e σ pc σref dt).yf > 0 then pc else 2)])) hs
    exact ⟨hS.add (isoT_symm _), ((hS.sub h0).smul _).add (isoT_symm _)⟩
  · exact ⟨hs.add (isoT_symm _), hr.add hd⟩
  · exact ⟨Matrix.isSymm_zero, hr⟩

example (fn : MathFns ℚ) (ops : NewtonOps ℚ) (pr : MCCParams ℚ) (L : Mat3 ℚ) :
    (mccUpdate fn ops pr L 0 (!![300, 20, 0; 20, 200, 0; 0, 0, 100] : Mat3 ℚ) 1000 0 2 (1 / 10)).stress.IsSymm :=
  (mccUpdate_symm fn ops pr L _ _ _ _ _ _ Matrix.isSymm_zero (by decide +kernel) Matrix.isSymm_zero).1

/-- The tensors of a law state are symmetric. -/
def LawState.Symm : LawState K → Prop
  | .elastic _ => True
  | .density _ => True
  | .dp e _ _ => ∀ i, (e i).IsSymm
  | .mcc _ r e => (∀ f, r = some f → ∀ i, (f i).IsSymm) ∧ ∀ i, (e i).IsSymm

theorem ofFin_symm {n : ℕ} (f : Fin n → Mat3 K) (h : ∀ p, (f p).IsSymm) (i : ℕ) :
    (ofFin 0 f i).IsSymm := by
  unfold ofFin
  split_ifs
  · exact h _
  · exact Matrix.isSymm_zero

/-- **C31** (any law of the package, all points of a body). -/
theorem libLaw_symm {dim : ℕ} {l : Law K dim (LawState K)} (hl : LibLaw l) {n : ℕ} (s : MPState K dim n)
    (ls : LawState K) (dt : K) (r) (h : l.update s ls dt = .ok r) (hs : ∀ p, (s.stress p).IsSymm)
    (hls : ls.Symm) : (∀ p, (r.1.stress p).IsSymm) ∧ r.2.Symm := by
  cases hl with
  | elastic E nu reset =>
    simp only [elasticLaw, Except.ok.injEq] at h; subst h
    exact ⟨fun p => elasticStress_symm _ _ _ _ _ (hs p), hls⟩
  | fluid fn pr reset =>
    simp only [fluidLaw] at h
    split at h
    · split_ifs at h; simp only [Except.ok.injEq] at h; subst h
      exact ⟨fun p => fluidStress_symm _ _ _ _ _ _, hls⟩
    · simp at h
  | muI fn pr reset =>
    simp only [muILaw] at h
    split at h
    · split_ifs at h; simp only [Except.ok.injEq] at h; subst h
      exact ⟨fun p => muIStress_symm _ _ _ _ _ _, hls⟩
    · simp at h
  | dp fn pr reset =>
    simp only [dpLaw] at h
    split at h
    · simp only [Except.ok.injEq] at h; subst h
      exact ⟨fun p => (dpUpdate_symm _ _ _ _ _ _ _ _ (hls p.val)).1,
        ofFin_symm _ fun p => (dpUpdate_symm _ _ _ _ _ _ _ _ (hls p.val)).2⟩
    · simp at h
  | mcc fn ops pr reset =>
    simp only [mccLaw] at h
    split at h
    · rename_i pc ref e
      simp only [Except.ok.injEq] at h; subst h
      have hr : ∀ i, (ref i).IsSymm := hls.1 ref rfl
      refine ⟨fun p => (mccUpdate_symm _ _ _ _ _ _ _ _ _ _ (hls.2 _) (hs p) (hr _)).1, ⟨?_, ?_⟩⟩
      · intro f hf; cases hf; exact hr
      · exact ofFin_symm _ fun p => (mccUpdate_symm _ _ _ _ _ _ _ _ _ _ (hls.2 _) (hs p) (hr _)).2
    · simp at h
    · simp at h

end

section
variable {z : Sz} {K : Type*} [Field K] [LinearOrder K] [FloorRing K] {dim : ℕ} {SS : Type*}
  {fn : MathFns K} {sv : Solver z K dim SS (LawState K) (ForceState K dim)}

/-- Every stress of the scene and every tensor in a law state is symmetric. -/
def SceneSymm (w : World z K dim SS) (m : Mech z K (LawState K) (ForceState K dim)) : Prop :=
  (∀ p s, w.bodies p = .deformable s → ∀ q, (s.stress q).IsSymm) ∧ ∀ c, (m.laws c).Symm

/-- **C31.** Any number of steps of either solver on any scene keeps all stresses symmetric. -/
theorem stress_symmetric_run (hL : ∀ c, LibLaw (sv.laws c)) (hf : ∀ f ∈ sv.forces, LibForce f)
    {call} (hcall : IsSolverCall fn sv call) (k : ℕ)
    (st st' : SimState z K dim SS (LawState K) (ForceState K dim))
    (h : runSteps call k st = .ok st') (h0 : SceneSymm st.world st.mech) :
    SceneSymm st'.world st'.mech := by
  refine runSteps_rel (R := fun st st' : SimState z K dim SS (LawState K) (ForceState K dim) =>
    SceneSymm st.world st.mech → SceneSymm st'.world st'.mech) (fun _ h => h)
    (fun _ _ _ h1 h2 h => h2 (h1 h)) ?_ k st st' h h0
  clear h h0 st st'
  intro st st' h h0
  obtain ⟨w, x0, x2, x3, x4, g2p, hw, h1, h2, hi, hg, h3, h4, h5, h6, h7⟩ := call_stages hf hcall h
  rw [h5, h6]
  -- stresses before the law stage are those at the start
  have hpre := (preP2g_lib (R := fun n (s s' : MPState K dim n) => s'.stress = s.stress)
    (fun _ _ _ => rfl) (fun _ _ => rfl) (fun _ _ _ _ a b => b.trans a) hf _ _ _ _ h1).1.1
  have hres := reset_rel (sv := sv) (R := fun n (s s' : MPState K dim n) => s'.stress = s.stress)
    (fun _ _ => rfl) (fun _ _ => rfl) w
  have i2 : SceneSymm x2.world x2.mech := by
    refine ⟨fun p s hs q => ?_, by rw [h7]; exact h0.2⟩
    have r := Body.Rel.trans (R := fun n (s s' : MPState K dim n) => s'.stress = s.stress)
      (fun _ _ _ _ a b => b.trans a) (hres p) (hpre p)
    rw [h2] at hs
    rw [hw, hs] at r
    cases hb : st.world.bodies p with
    | rigid r' => rw [hb] at r; exact absurd r id
    | deformable s' =>
      rw [hb] at r
      have e : s.stress = s'.stress := r
      rw [e]; exact h0.1 p s' hb q
  have i3 : SceneSymm x3.world x3.mech := by
    refine foldE_inv (I := fun y : Ctx z K dim SS (LawState K) (ForceState K dim) =>
      SceneSymm y.world y.mech) sv.couplings x2 x3 i2 ?_ h3
    intro c _ y y' hI hy
    rcases hg with rfl | ⟨pr, rfl⟩
    · cases hs : c.skip with
      | true => rw [g2pCoupling_skip hs hy]; exact hI
      | false =>
        obtain ⟨ker, ic, s, -, hb, rfl⟩ := g2pCoupling_ok hs hy
        refine ⟨fun p s' hs' q => ?_, hI.2⟩
        by_cases hq : p = c.p
        · subst hq
          rw [setBody_self] at hs'
          cases hs'
          exact hI.1 _ s hb q
        · rw [setBody_ne _ hq] at hs'
          exact hI.1 _ s' hs' q
    · cases hs : c.skip with
      | true => rw [aflipG2pCoupling_skip hs hy]; exact hI
      | false =>
        obtain ⟨ker, ic, s, r, hS, -, hb, hr, rfl⟩ := aflipG2pCoupling_ok hs hy
        refine ⟨fun p s' hs' q => ?_, hI.2⟩
        by_cases hq : p = c.p
        · subst hq
          have hs' := (setBody_self y c.p (.deformable r.1)).symm.trans hs'
          cases hs'
          rw [aflipG2pBody_ok hr]
          exact hI.1 _ s hb q
        · exact hI.1 _ s' ((setBody_ne y hq (.deformable r.1)).symm.trans hs') q
  refine foldE_inv (I := fun y : Ctx z K dim SS (LawState K) (ForceState K dim) =>
      SceneSymm y.world y.mech) sv.couplings x3 x4 i3 ?_ h4
  intro c _ y y' hI hy
  cases hs : c.skip with
  | true => rw [lawCoupling_skip hs hy]; exact hI
  | false =>
    obtain ⟨s, r, hb, hr, rfl⟩ := lawCoupling_ok hs hy
    obtain ⟨a1, a2⟩ := libLaw_symm (hL c.c) s _ _ r hr (hI.1 _ s hb) (hI.2 c.c)
    refine ⟨fun p s' hs' q => ?_, fun d => ?_⟩
    · by_cases hq : p = c.p
      · subst hq
        have hs' := (setBody_self y c.p
          (.deformable (removeShear fn (sv.laws c.c).requiresFReset r.1))).symm.trans hs'
        cases hs'
        unfold removeShear
        split_ifs <;> exact a1 q
      · exact hI.1 _ s' ((setBody_ne y hq
          (.deformable (removeShear fn (sv.laws c.c).requiresFReset r.1))).symm.trans hs') q
    · by_cases hd : d = c.c
      · subst hd
        change (Function.update y.mech.laws c.c r.2 c.c).Symm
        rw [Function.update_self]; exact a2
      · change (Function.update y.mech.laws c.c r.2 d).Symm
        rw [Function.update_of_ne hd]; exact hI.2 d

/-- The example scene starts symmetric (with shear stresses). -/
example : SceneSymm exState.world exState.mech := by
  refine ⟨fun p s hs q => ?_, fun c => trivial⟩
  have : s = exBody := by
    have := hs.symm
    simp only [exState] at this
    cases this; rfl
  subst this
  ext i j
  fin_cases i <;> fin_cases j <;> simp [exBody, MPState.create]

end
end Hydrax
