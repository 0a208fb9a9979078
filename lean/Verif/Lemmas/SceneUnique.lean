import Verif.Lemmas.SceneEst

/-!
# One call as seen by one body with a single coupling (helper lemmas)
-/

set_option linter.unusedSectionVars false

namespace Hydrax

section
variable {z : Sz} {K : Type*} [Field K] [LinearOrder K] [FloorRing K] {dim : ℕ} {SS LS : Type*}
  {fn : MathFns K} {sv : Solver z K dim SS LS (ForceState K dim)}

/-- Two states that differ at most in `L` and `force`. -/
def SameButScratch (n : ℕ) (s s' : MPState K dim n) : Prop := s' = { s with L := s'.L, force := s'.force }

/-- What one grid-to-particle update of either solver does to a body. -/
def IsG2p (fn : MathFns K) (dt : K) {n : ℕ} (s r : MPState K dim n) : Prop :=
  ∃ ker dom, ∃ pos : Fin n → Fin dim → K, ∃ gr,
    (∃ alpha ghost, r = g2pBody alpha dt (compute ker dom pos) ghost gr s) ∨
      ∃ pr cell Bp, aflipG2pBody fn.sqrt pr cell dt (compute ker dom pos) gr s = .ok (r, Bp)

theorem same_p {l : List (Coupling z)} (hn : (l.map (·.p)).Nodup) {b c : Coupling z} (hb : b ∈ l) (hc : c ∈ l)
    (h : c.p = b.p) : b = c := by
  induction l with
  | nil => simp at hb
  | cons d l ih =>
    rw [List.map_cons, List.nodup_cons] at hn
    rcases List.mem_cons.mp hb with rfl | hb' <;> rcases List.mem_cons.mp hc with rfl | hc'
    · rfl
    · exact absurd (List.mem_map.mpr ⟨c, hc', h⟩) hn.1
    · exact absurd (List.mem_map.mpr ⟨b, hb', h.symm⟩) hn.1
    · exact ih hn.2 hb' hc'

/-- A fold over couplings of distinct bodies reaches body `c.p` once. -/
theorem foldE_once {σ : Type*} {f : σ → Coupling z → Except PyErr σ} {A B : σ → Prop} {l : List (Coupling z)}
    (hn : (l.map (·.p)).Nodup) {c : Coupling z} (hc : c ∈ l)
    (hA : ∀ b ∈ l, b.p ≠ c.p → ∀ y y', A y → f y b = .ok y' → A y')
    (hB : ∀ b ∈ l, b.p ≠ c.p → ∀ y y', B y → f y b = .ok y' → B y')
    (hAB : ∀ y y', A y → f y c = .ok y' → B y') {s s' : σ} (hs : A s) (h : foldE f s l = .ok s') : B s' := by
  induction l generalizing s with
  | nil => simp at hc
  | cons d l ih =>
    obtain ⟨s1, h1, h2⟩ := foldE_cons_ok.mp h
    have hn' := hn
    rw [List.map_cons, List.nodup_cons] at hn
    by_cases hd : d = c
    · subst hd
      refine foldE_inv l s1 s' (hAB _ _ hs h1) (fun b hb y y' hy hyy => ?_) h2
      refine hB b (by simp [hb]) (fun e => hn.1 ?_) y y' hy hyy
      exact List.mem_map.mpr ⟨b, hb, e⟩
    · have hcl : c ∈ l := by
        rcases List.mem_cons.mp hc with e | e
        · exact absurd e.symm hd
        · exact e
      have hne : d.p ≠ c.p := fun e => hd (same_p hn' (by simp) hc e.symm)
      exact ih hn.2 hcl (fun b hb => hA b (by simp [hb])) (fun b hb => hB b (by simp [hb]))
        (hA d (by simp) hne _ _ hs h1) h2

/-- **One call, one body.** If every body has one coupling, a call resets the scratch arrays of a body with an active coupling,
lets forces write to them, performs one grid-to-particle update, one stress update and the reset of `F`. -/
theorem call_unique (hL : ∀ c, (sv.laws c).OnlyStress) (hf : ∀ f ∈ sv.forces, LibForce f)
    (hn : (sv.couplings.map (·.p)).Nodup) {call} (hcall : IsSolverCall fn sv call)
    {st st' : SimState z K dim SS LS (ForceState K dim)} (h : call st = .ok st')
    (c : Coupling z) (hc : c ∈ sv.couplings) (hs : c.skip = false) :
    ∃ s s1 r σ, st.world.bodies c.p = .deformable s ∧ SameButScratch _ s s1 ∧ IsG2p fn st.dt s1 r ∧
      st'.world.bodies c.p = .deformable (removeShear fn (sv.laws c.c).requiresFReset { r with stress := σ }) := by
  obtain ⟨w, x0, x2, x3, x4, g2p, hw0, h0, hw2, hi, hg2, h3, h4, hw, -, -⟩ := call_stages hf hcall h
  have hrefl : ∀ n (s : MPState K dim n), SameButScratch n s s := fun _ _ => rfl
  have htrans : ∀ n (a b c : MPState K dim n), SameButScratch n a b → SameButScratch n b c → SameButScratch n a c := by
    intro n a b c h1 h2
    unfold SameButScratch at *
    rw [h2, h1]
  have hok : CacheOk x2.cache := by
    intro p g v hv
    rw [hi] at hv
    exact buildCache_ok fn sv _ _ p g v hv
  have r1 := reset_rel (sv := sv) (R := SameButScratch) (fun _ _ => rfl) hrefl w c.p
  have r2 := (preP2g_lib (R := SameButScratch) (fun _ _ _ => rfl) hrefl htrans hf _ _ _ _ h0).1.1 c.p
  have r3 : Body.Rel SameButScratch (st.world.bodies c.p) (x2.world.bodies c.p) := by
    rw [hw2, ← hw0]
    exact r1.trans htrans r2
  have e3 : ∃ s1 r, x2.world.bodies c.p = .deformable s1 ∧ IsG2p fn st.dt s1 r ∧ x3.world.bodies c.p = .deformable r := by
    rcases hg2 with rfl | ⟨pr, rfl⟩
    · refine (foldE_once (A := fun y => y.cache = x2.cache ∧ y.world.bodies c.p = x2.world.bodies c.p)
        (B := fun y => y.cache = x2.cache ∧ ∃ s1 r, x2.world.bodies c.p = .deformable s1 ∧ IsG2p fn st.dt s1 r ∧
          y.world.bodies c.p = .deformable r) hn hc ?_ ?_ ?_ ⟨rfl, rfl⟩ h3).2
      · rintro b - hbc y y' ⟨a1, a2⟩ hy
        cases hsb : b.skip with
        | true => rw [g2pCoupling_skip hsb hy]; exact ⟨a1, a2⟩
        | false =>
          obtain ⟨ker, ic, s, -, -, rfl⟩ := g2pCoupling_ok hsb hy
          exact ⟨a1, by rw [setBody_ne _ (Ne.symm hbc)]; exact a2⟩
      · rintro b - hbc y y' ⟨a1, a2⟩ hy
        cases hsb : b.skip with
        | true => rw [g2pCoupling_skip hsb hy]; exact ⟨a1, a2⟩
        | false =>
          obtain ⟨ker, ic, s, -, -, rfl⟩ := g2pCoupling_ok hsb hy
          exact ⟨a1, by rw [setBody_ne _ (Ne.symm hbc)]; exact a2⟩
      · rintro y y' ⟨a1, a2⟩ hy
        obtain ⟨ker, ic, s, hic, hb, rfl⟩ := g2pCoupling_ok hs hy
        rw [a1] at hic
        obtain ⟨dom, pos, hcp⟩ := hok _ _ _ hic
        simp only at hcp
        rw [a2] at hb
        refine ⟨a1, s, _, hb, ?_, setBody_self _ _ _⟩
        rw [hcp]
        exact ⟨_, _, _, _, .inl ⟨_, _, rfl⟩⟩
    · refine (foldE_once (A := fun y => y.cache = x2.cache ∧ y.world.bodies c.p = x2.world.bodies c.p)
        (B := fun y => y.cache = x2.cache ∧ ∃ s1 r, x2.world.bodies c.p = .deformable s1 ∧ IsG2p fn st.dt s1 r ∧
          y.world.bodies c.p = .deformable r) hn hc ?_ ?_ ?_ ⟨rfl, rfl⟩ h3).2
      · rintro b - hbc y y' ⟨a1, a2⟩ hy
        cases hsb : b.skip with
        | true => rw [aflipG2pCoupling_skip hsb hy]; exact ⟨a1, a2⟩
        | false =>
          obtain ⟨ker, ic, s, r, hS, -, -, -, rfl⟩ := aflipG2pCoupling_ok hsb hy
          exact ⟨a1, (setBody_ne y (Ne.symm hbc) (.deformable r.1)).trans a2⟩
      · rintro b - hbc y y' ⟨a1, s1, r', a2, a3, a4⟩ hy
        cases hsb : b.skip with
        | true => rw [aflipG2pCoupling_skip hsb hy]; exact ⟨a1, s1, r', a2, a3, a4⟩
        | false =>
          obtain ⟨ker, ic, s, r, hS, -, -, -, rfl⟩ := aflipG2pCoupling_ok hsb hy
          exact ⟨a1, s1, r', a2, a3, (setBody_ne y (Ne.symm hbc) (.deformable r.1)).trans a4⟩
      · rintro y y' ⟨a1, a2⟩ hy
        obtain ⟨ker, ic, s, r, hS, hic, hb, hr, rfl⟩ := aflipG2pCoupling_ok hs hy
        rw [a1] at hic
        obtain ⟨dom, pos, hcp⟩ := hok _ _ _ hic
        simp only at hcp
        rw [hcp] at hr
        rw [a2] at hb
        exact ⟨a1, s, r.1, hb, ⟨_, _, _, _, .inr ⟨_, _, r.2, hr⟩⟩, setBody_self y _ (.deformable r.1)⟩
  obtain ⟨s1, r, e1, e2, e4⟩ := e3
  have e5 : ∃ σ, x4.world.bodies c.p = .deformable (removeShear fn (sv.laws c.c).requiresFReset { r with stress := σ }) := by
    refine foldE_once (A := fun y => y.world.bodies c.p = .deformable r)
      (B := fun y => ∃ σ, y.world.bodies c.p =
        .deformable (removeShear fn (sv.laws c.c).requiresFReset { r with stress := σ })) hn hc ?_ ?_ ?_ e4 h4
    · rintro b - hbc y y' a hy
      cases hsb : b.skip with
      | true => rw [lawCoupling_skip hsb hy]; exact a
      | false =>
        obtain ⟨s, q, -, -, rfl⟩ := lawCoupling_ok hsb hy
        exact (setBody_ne y (Ne.symm hbc) (.deformable (removeShear fn (sv.laws b.c).requiresFReset q.1))).trans a
    · rintro b - hbc y y' ⟨σ, a⟩ hy
      cases hsb : b.skip with
      | true => rw [lawCoupling_skip hsb hy]; exact ⟨σ, a⟩
      | false =>
        obtain ⟨s, q, -, -, rfl⟩ := lawCoupling_ok hsb hy
        exact ⟨σ, (setBody_ne y (Ne.symm hbc) (.deformable (removeShear fn (sv.laws b.c).requiresFReset q.1))).trans a⟩
    · rintro y y' a hy
      obtain ⟨s, q, hb, hq, rfl⟩ := lawCoupling_ok hs hy
      rw [a] at hb
      obtain rfl := Body.deformable.inj hb
      refine ⟨q.1.stress, (setBody_self y _ _).trans ?_⟩
      rw [← hL c.c r _ _ q hq]
  obtain ⟨σ, e5⟩ := e5
  rw [e1] at r3
  cases hb : st.world.bodies c.p with
  | rigid _ => rw [hb] at r3; exact r3.elim
  | deformable s =>
    rw [hb] at r3
    exact ⟨s, s1, r, σ, rfl, r3, e2, by rw [hw]; exact e5⟩

end
end Hydrax
