import Verif.Model.Step
import Verif.Model.Forces
import Verif.Model.Asflip

/-!
# Loops that may raise, and the decomposition of a solver call (helper lemmas)
-/

set_option linter.unusedSectionVars false

namespace Hydrax

theorem andThen_ok {α β : Type*} {x : Except PyErr α} {f : α → Except PyErr β} {b : β} :
    andThen x f = .ok b ↔ ∃ a, x = .ok a ∧ f a = .ok b := by
  cases x with
  | error e => simp [andThen]
  | ok a => simp [andThen]

theorem aflipG2pBody_ok {K : Type*} [Field K] [LinearOrder K] {dim n w : ℕ} {sqrt : K → K}
    {pr : AflipParams K} {cell dt : K} {c : InteractionCache K n w} {g : GridArrays K dim}
    {s : MPState K dim n} {r} (h : aflipG2pBody sqrt pr cell dt c g s = .ok r) :
    r = aflipG2pMls sqrt pr cell dt c g s := by
  unfold aflipG2pBody at h
  split_ifs at h
  exact (Except.ok.inj h).symm

theorem foldE_rel {σ α : Type*} {f : σ → α → Except PyErr σ} {R : σ → σ → Prop}
    (hrefl : ∀ s, R s s) (htrans : ∀ a b c, R a b → R b c → R a c) :
    ∀ (l : List α) (s s' : σ), (∀ a ∈ l, ∀ s s', f s a = .ok s' → R s s') →
      foldE f s l = .ok s' → R s s'
  | [], s, s', _, h => by
    have : s = s' := by simpa [foldE] using h
    exact this ▸ hrefl s
  | a :: l, s, s', hf, h => by
    unfold foldE at h
    cases hfa : f s a with
    | error e => rw [hfa] at h; simp at h
    | ok s1 =>
      rw [hfa] at h
      exact htrans _ _ _ (hf a (by simp) s s1 hfa)
        (foldE_rel hrefl htrans l s1 s' (fun b hb => hf b (by simp [hb])) h)

theorem foldE_inv {σ α : Type*} {f : σ → α → Except PyErr σ} {I : σ → Prop} (l : List α) (s s' : σ)
    (hs : I s) (hf : ∀ a ∈ l, ∀ s s', I s → f s a = .ok s' → I s') (h : foldE f s l = .ok s') : I s' :=
  foldE_rel (R := fun a b => I a → I b) (fun _ h => h) (fun _ _ _ h1 h2 h => h2 (h1 h)) l s s'
    (fun a ha s s' h hI => hf a ha s s' hI h) h hs

theorem foldE_cons_ok {σ α : Type*} {f : σ → α → Except PyErr σ} {a : α} {l : List α} {s s' : σ} :
    foldE f s (a :: l) = .ok s' ↔ ∃ s1, f s a = .ok s1 ∧ foldE f s1 l = .ok s' := by
  conv_lhs => unfold foldE
  cases f s a <;> simp

section
variable {z : Sz} {K : Type*} [Field K] [LinearOrder K] [FloorRing K] {dim : ℕ} {SS LS FS : Type*}

/-- Intermediate states of a successful call. -/
theorem callWith_ok {fn : MathFns K} {sv : Solver z K dim SS LS FS}
    {p2g g2p : Ctx z K dim SS LS FS → K → K → Except PyErr (Ctx z K dim SS LS FS)}
    {st st' : SimState z K dim SS LS FS} (h : callWith fn sv p2g g2p st = .ok st') :
    ∃ wm x1 x2 x3 x4, kinematicUpdate sv st.world st.mech st.dt st.time = .ok wm ∧
      p2g { world := resetMaterialPoints sv wm.1, mech := wm.2,
            cache := buildCache fn sv (resetMaterialPoints sv wm.1) st.dt } st.dt st.time = .ok x1 ∧
      integrateGrid sv x1 st.dt st.time = .ok x2 ∧
      g2p x2 st.dt st.time = .ok x3 ∧
      constitutiveUpdate fn sv x3 st.dt st.time = .ok x4 ∧
      st' = { st with world := x4.world, mech := x4.mech, step := st.step + 1,
                      time := st.time + st.dt } := by
  unfold callWith at h
  obtain ⟨wm, h1, h⟩ := andThen_ok.mp h
  obtain ⟨x1, h2, h⟩ := andThen_ok.mp h
  obtain ⟨x2, h3, h⟩ := andThen_ok.mp h
  obtain ⟨x3, h4, h⟩ := andThen_ok.mp h
  obtain ⟨x4, h5, h⟩ := andThen_ok.mp h
  exact ⟨wm, x1, x2, x3, x4, h1, h2, h3, h4, h5, (Except.ok.inj h).symm⟩

theorem runSteps_succ_ok {σ : Type*} {call : σ → Except PyErr σ} {n : ℕ} {s s' : σ} :
    runSteps call (n + 1) s = .ok s' ↔ ∃ s1, runSteps call n s = .ok s1 ∧ call s1 = .ok s' := by
  exact andThen_ok

theorem foldE_establish {σ α : Type*} {f : σ → α → Except PyErr σ} {I : σ → Prop} (l : List α)
    (s s' : σ) (a : α) (ha : a ∈ l) (hest : ∀ s s', f s a = .ok s' → I s')
    (hf : ∀ b ∈ l, ∀ s s', I s → f s b = .ok s' → I s') (h : foldE f s l = .ok s') : I s' := by
  induction l generalizing s with
  | nil => simp at ha
  | cons b l ih =>
    obtain ⟨s1, h1, h2⟩ := foldE_cons_ok.mp h
    rcases List.mem_cons.mp ha with rfl | ha'
    · exact foldE_inv l s1 s' (hest s s1 h1) (fun b hb => hf b (by simp [hb])) h2
    · exact ih s1 ha' (fun b hb => hf b (by simp [hb])) h2

/-- `foldE_establish` in the presence of a loop invariant `P`. -/
theorem foldE_establish' {σ α : Type*} {f : σ → α → Except PyErr σ} {P I : σ → Prop} (l : List α)
    (s s' : σ) (a : α) (ha : a ∈ l) (hP : P s) (hPf : ∀ b ∈ l, ∀ s s', P s → f s b = .ok s' → P s')
    (hest : ∀ s s', P s → f s a = .ok s' → I s')
    (hf : ∀ b ∈ l, ∀ s s', P s → I s → f s b = .ok s' → I s') (h : foldE f s l = .ok s') :
    P s' ∧ I s' := by
  induction l generalizing s with
  | nil => simp at ha
  | cons b l ih =>
    obtain ⟨s1, h1, h2⟩ := foldE_cons_ok.mp h
    have hP1 := hPf b (by simp) s s1 hP h1
    rcases List.mem_cons.mp ha with rfl | ha'
    · exact foldE_inv (I := fun s => P s ∧ I s) l s1 s' ⟨hP1, hest s s1 hP h1⟩
        (fun b hb s s' hs hh => ⟨hPf b (by simp [hb]) s s' hs.1 hh,
          hf b (by simp [hb]) s s' hs.1 hs.2 hh⟩) h2
    · exact ih s1 ha' hP1 (fun b hb => hPf b (by simp [hb])) (fun b hb => hf b (by simp [hb])) h2

/-- Induction over the steps of a run. -/
theorem runSteps_rel {σ : Type*} {call : σ → Except PyErr σ} {R : σ → σ → Prop}
    (hrefl : ∀ s, R s s) (htrans : ∀ a b c, R a b → R b c → R a c)
    (hcall : ∀ s s', call s = .ok s' → R s s') :
    ∀ (n : ℕ) (s s' : σ), runSteps call n s = .ok s' → R s s'
  | 0, s, s', h => by
    have : s = s' := by simpa [runSteps] using h
    exact this ▸ hrefl s
  | n + 1, s, s', h => by
    obtain ⟨s1, h1, h2⟩ := runSteps_succ_ok.mp h
    exact htrans _ _ _ (runSteps_rel hrefl htrans hcall n s s1 h1) (hcall _ _ h2)

end

/-- The forces shipped with the package. -/
inductive LibForce {z : Sz} {K : Type*} [Field K] [LinearOrder K] {dim : ℕ} {SS LS : Type*} :
    ForceHooks z K dim SS LS (ForceState K dim) → Prop
  | gravity (onGrid ps gs fIdx) : LibForce (gravityForce onGrid ps gs fIdx)
  | damping (onGrid ps gs fIdx) : LibForce (dampingForce onGrid ps gs fIdx)
  | sdfCollider (fn sdf gs gap base) : LibForce (sdfColliderForce fn sdf gs gap base)
  | gridContact : LibForce gridContactForce

/-- A law that writes only stresses and its own state, as all laws of the package do. -/
def Law.OnlyStress {K : Type*} {dim : ℕ} {LS : Type*} (l : Law K dim LS) : Prop :=
  ∀ {n : ℕ} (s : MPState K dim n) (ls : LS) (dt : K) (r : MPState K dim n × LS),
    l.update s ls dt = .ok r → r.1 = { s with stress := r.1.stress }

end Hydrax
