import Verif.Lemmas.ElementPoint
import Verif.Props.Momentum
import Verif.Lemmas.RealFns
import Verif.Lemmas.ExampleScene

/-!
# Property C130: an element test predicts the material points of a simulation
-/

set_option linter.unusedSectionVars false

namespace Hydrax
open Spec

section
variable {K : Type*} [Field K] [LinearOrder K] {dim n : ℕ}

/-- An element test of `n` steps with the velocity gradients and time steps of `hist`. -/
def Spec.drive (expm : Mat3 K → Mat3 K) (d : Driver K dim (LawState K)) (linear : Option Bool) (hist : ℕ → Mat3 K × K) :
    ℕ → MPState K dim 1 × LawState K → Except PyErr (MPState K dim 1 × LawState K)
  | 0, x => .ok x
  | k + 1, x => andThen (drive expm d linear hist k x) fun y => d.step expm y.1 y.2 (hist k).1 (hist k).2 linear

/-- The element `x` has the mass, stress and law state of point `p` of body `s`. -/
def Spec.SameStress (x : MPState K dim 1 × LawState K) (s : MPState K dim n) (ls : LawState K) (p : Fin n) : Prop :=
  x.1.mass 0 = s.mass p ∧ x.1.stress 0 = s.stress p ∧ lawAt x.2 0 = lawAt ls p

/-- The element `x` has the volumes of point `p` of body `s`. -/
def Spec.SameVolume (x : MPState K dim 1 × LawState K) (s : MPState K dim n) (p : Fin n) : Prop :=
  x.1.volume 0 = s.volume p ∧ x.1.volume0 0 = s.volume0 p ∧ (x.1.F 0).det = (s.F p).det

theorem driver_step_as_point (expm : Mat3 K → Mat3 K) (d : Driver K dim (LawState K)) (linear : Option Bool)
    (x : MPState K dim 1 × LawState K) (hx : x.1.volScalar = false) (L σ : Mat3 K) (dt mass vol : K) (hm : x.1.mass 0 = mass)
    (hv : x.1.volume 0 = vol) (hσ : x.1.stress 0 = σ) (res : Mat3 K × LawState K)
    (h : ∀ m, answer (d.law.update (onePoint m mass vol L σ) x.2 dt) 0 = .ok res) :
    ∃ y, d.step expm x.1 x.2 L dt linear = .ok y ∧ y.1.stress 0 = res.1 ∧ lawAt y.2 0 = res.2 ∧ y.1.mass = x.1.mass ∧
      y.1.volume0 = x.1.volume0 ∧ y.1.volScalar = false ∧
      y.1.F 0 = (if linear = some true then (1 - dt • L) * x.1.F 0 else expm (-(dt • L)) * x.1.F 0) ∧
      y.1.volume 0 = (y.1.F 0).det * x.1.volume0 0 := by
  set Fn : Fin 1 → Mat3 K := fun p => if linear = some true then (1 - dt • L) * x.1.F p else expm (-(dt • L)) * x.1.F p with hF
  have e : ({ x.1 with L := fun _ => L, F := Fn } : MPState K dim 1) = onePoint { x.1 with F := Fn } mass vol L σ := by
    have f1 : x.1.mass = fun _ => mass := funext fun i => by rw [Subsingleton.elim i 0, hm]
    have f2 : x.1.volume = fun _ => vol := funext fun i => by rw [Subsingleton.elim i 0, hv]
    have f3 : x.1.stress = fun _ => σ := funext fun i => by rw [Subsingleton.elim i 0, hσ]
    unfold onePoint
    rw [← f1, ← f2, ← f3, ← hx]
  have h' := h { x.1 with F := Fn }
  rw [← e] at h'
  cases hu : d.law.update { x.1 with L := fun _ => L, F := Fn } x.2 dt with
  | error er => rw [hu] at h'; exact absurd h' (by simp [answer, Except.map])
  | ok r =>
    rw [hu] at h'
    simp only [answer, Except.map, Except.ok.injEq] at h'
    refine ⟨({ x.1 with L := r.1.L, F := Fn, stress := r.1.stress, volume := fun p => (Fn p).det * x.1.volume0 p, volScalar := false }, r.2),
      ?_, congrArg Prod.fst h', congrArg Prod.snd h', rfl, rfl, rfl, rfl, rfl⟩
    simp only [Driver.step]
    rw [show (fun p => if linear = some true then (1 - dt • L) * x.1.F p else expm (-(dt • L)) * x.1.F p) = Fn from rfl, hu]
    rfl

end

section
variable {z : Sz} {K : Type*} [Field K] [LinearOrder K] [IsStrictOrderedRing K] [FloorRing K] {dim : ℕ} {SS : Type*}
  {fn : MathFns K} {sv : Solver z K dim SS (LawState K) (ForceState K dim)}

/-- One step of the solver and one step of the element test. -/
theorem element_step (expm : Mat3 K → Mat3 K) (linear : Option Bool) (hf : ∀ f ∈ sv.forces, LibForce f) {call}
    (hcall : IsSolverCall fn sv call) {st st' : SimState z K dim SS (LawState K) (ForceState K dim)} (h : call st = .ok st')
    {c : Coupling z} (hs : c.skip = false) (hal : Alone sv.couplings c) (hlaw : LibLaw (sv.laws c.c)) (h1 : z.np c.p ≠ 1)
    {s s' : MPState K dim (z.np c.p)} (hb : st.world.bodies c.p = .deformable s) (hb' : st'.world.bodies c.p = .deformable s')
    (p : Fin (z.np c.p)) (x : MPState K dim 1 × LawState K) (hx : x.1.volScalar = false)
    (hsame : SameStress x s (st.mech.laws c.c) p) (L : Mat3 K)
    (halike : Alike (sv.laws c.c) (s.mass p) (x.1.volume 0) L (s'.volume p) (s'.L p)) (fl : Bool) :
    ∃ y, Driver.step expm { law := sv.laws c.c, isFLinearApprox := fl } x.1 x.2 L st.dt linear = .ok y ∧
      y.1.volScalar = false ∧ SameStress y s' (st'.mech.laws c.c) p ∧ y.1.volume0 = x.1.volume0 ∧
      y.1.F 0 = (if linear = some true then (1 - st.dt • L) * x.1.F 0 else expm (-(st.dt • L)) * x.1.F 0) ∧
      y.1.volume 0 = (y.1.F 0).det * x.1.volume0 0 := by
  obtain ⟨s0, t, r, hb0, ⟨d1, d2, d3, d4, d5, d6, d7⟩, hr, hbr, hlr⟩ := call_point hf hcall h hs hal
  have e0 : s0 = s := Body.deformable.inj (hb0.symm.trans hb)
  subst e0
  have e1 : s' = removeShear fn (sv.laws c.c).requiresFReset r.1 := Body.deformable.inj (hb'.symm.trans hbr)
  have hos := hlaw.onlyStress t _ _ r hr
  have q1 : s'.mass = t.mass ∧ s'.volume = t.volume ∧ s'.L = t.L ∧ s'.stress = r.1.stress := by
    rw [e1, hos]
    unfold removeShear
    split_ifs <;> exact ⟨rfl, rfl, rfl, rfl⟩
  obtain ⟨m1, m2, m3⟩ := hsame
  have hans : ∀ m, answer ((sv.laws c.c).update (onePoint m (s0.mass p) (x.1.volume 0) L (s0.stress p)) x.2 st.dt) 0 =
      .ok (s'.stress p, lawAt (st'.mech.laws c.c) p) := by
    intro m
    rw [halike m (s0.stress p) x.2 st.dt]
    have := libLaw_point hlaw t (by rw [d4]; simp [h1]) (st.mech.laws c.c) x.2 p m3 st.dt m
    rw [d1, d3, ← q1.2.1, ← q1.2.2.1] at this
    rw [← this, hr, hlr, q1.2.2.2]
    rfl
  obtain ⟨y, y1, y2, y3, y4, y5, y6, y7, y8⟩ := driver_step_as_point expm { law := sv.laws c.c, isFLinearApprox := fl } linear x hx L
    (s0.stress p) st.dt (s0.mass p) (x.1.volume 0) m1 rfl m2 _ hans
  refine ⟨y, y1, y6, ⟨?_, y2, y3⟩, y5, y7, y8⟩
  rw [y4, m1, q1.1, d1]

/-- The volume of a point and of the element after a step with the linear update. -/
theorem element_step_volume (hf : ∀ f ∈ sv.forces, LibForce f) {call}
    (hcall : IsSolverCall fn sv call) {st st' : SimState z K dim SS (LawState K) (ForceState K dim)} (h : call st = .ok st')
    {c : Coupling z} (hs : c.skip = false) (hal : Alone sv.couplings c) (hlaw : LibLaw (sv.laws c.c))
    (hreset : (sv.laws c.c).requiresFReset = false)
    {s s' : MPState K dim (z.np c.p)} (hb : st.world.bodies c.p = .deformable s) (hb' : st'.world.bodies c.p = .deformable s')
    (p : Fin (z.np c.p)) (h2 : dim = 2 → s.F p 2 2 = 1) :
    (s'.F p).det = (1 - st.dt • s'.L p).det * (s.F p).det ∧ s'.volume p = (s'.F p).det * s.volume0 p ∧
      s'.volume0 = s.volume0 ∧ s'.mass = s.mass ∧ (dim = 2 → s'.F p 2 2 = 1) := by
  obtain ⟨s0, t, r, hb0, ⟨d1, d2, d3, d4, d5, d6, d7⟩, hr, hbr, hlr⟩ := call_point hf hcall h hs hal
  have e0 : s0 = s := Body.deformable.inj (hb0.symm.trans hb)
  subst e0
  have e1 : s' = removeShear fn (sv.laws c.c).requiresFReset r.1 := Body.deformable.inj (hb'.symm.trans hbr)
  have hos := hlaw.onlyStress t _ _ r hr
  have q1 : s'.F = t.F ∧ s'.volume = t.volume ∧ s'.L = t.L ∧ s'.volume0 = t.volume0 ∧ s'.mass = t.mass := by
    rw [e1, hos, hreset]
    exact ⟨rfl, rfl, rfl, rfl, rfl⟩
  obtain ⟨a1, a2, a3, a4, a5⟩ := q1
  rw [a1, a2, a3, a4, a5]
  have hF : t.F p = (1 - st.dt • t.L p) * s0.F p := by
    rw [d5 p]
    split_ifs with hd
    · apply set22_self
      obtain ⟨⟨-, -, g3, g4⟩, g5⟩ := d7 hd p
      simp [Matrix.mul_apply, Fin.sum_univ_three, g3, g4, g5, h2 hd]
    · rfl
  refine ⟨by rw [hF, Matrix.det_mul], by rw [d6, d2], d2, d1, ?_⟩
  intro hd
  rw [d5 p, if_pos hd]
  simp [set22]

/-- **C130 (partial)**: a simulation with either solver is followed for any number of steps. Some point of a body of more than
one point, whose law no other active coupling uses, is compared with an element test of the same law that starts from the
same mass, volumes, stress and law state and is given, step by step, the velocity gradients stored at the point (or their
transposes), with the linear update of the deformation. Provided that at every step the law does not tell the volume before the
step from the volume after it, the element test succeeds and ends with the stress, law state and volume of the point. What
is missing: for the fluid and the mu(I) law the two volumes are told apart unless they are equal, see `element_lags`. -/
theorem element_predicts_run_partial (expm : Mat3 K → Mat3 K) (hf : ∀ f ∈ sv.forces, LibForce f) {call}
    (hcall : IsSolverCall fn sv call) (n : ℕ) (sts : ℕ → SimState z K dim SS (LawState K) (ForceState K dim))
    (hrun : ∀ k < n, call (sts k) = .ok (sts (k + 1))) {c : Coupling z} (hs : c.skip = false) (hal : Alone sv.couplings c)
    (hlaw : LibLaw (sv.laws c.c)) (hreset : (sv.laws c.c).requiresFReset = false) (h1 : z.np c.p ≠ 1)
    (bs : ℕ → MPState K dim (z.np c.p)) (hbs : ∀ k ≤ n, (sts k).world.bodies c.p = .deformable (bs k))
    (p : Fin (z.np c.p)) (h2 : dim = 2 → (bs 0).F p 2 2 = 1)
    (x : MPState K dim 1 × LawState K) (hx : x.1.volScalar = false)
    (hsame : SameStress x (bs 0) ((sts 0).mech.laws c.c) p) (hvol : SameVolume x (bs 0) p) (Ls : ℕ → Mat3 K)
    (hLs : ∀ k < n, (Ls k = (bs (k + 1)).L p ∨ Ls k = ((bs (k + 1)).L p).transpose) ∧
      Alike (sv.laws c.c) ((bs 0).mass p) ((bs k).volume p) (Ls k) ((bs (k + 1)).volume p) ((bs (k + 1)).L p)) (fl : Bool) :
    ∃ y, drive expm { law := sv.laws c.c, isFLinearApprox := fl } (some true) (fun k => (Ls k, (sts k).dt)) n x = .ok y ∧
      SameStress y (bs n) ((sts n).mech.laws c.c) p ∧ SameVolume y (bs n) p := by
  have key : ∀ k ≤ n, ∃ y, drive expm { law := sv.laws c.c, isFLinearApprox := fl } (some true) (fun k => (Ls k, (sts k).dt)) k x = .ok y ∧
      y.1.volScalar = false ∧ (dim = 2 → (bs k).F p 2 2 = 1) ∧ (bs k).mass = (bs 0).mass ∧
      SameStress y (bs k) ((sts k).mech.laws c.c) p ∧ SameVolume y (bs k) p := by
    intro k
    induction k with
    | zero => intro _; exact ⟨x, rfl, hx, h2, rfl, hsame, hvol⟩
    | succ k ih =>
      intro hk
      obtain ⟨y, y1, y2, y3, y4, y5, v1, v2, v3⟩ := ih (by omega)
      obtain ⟨hL, hA⟩ := hLs k (by omega)
      obtain ⟨w, w1, w2, w3, w4, w5, w6⟩ := element_step expm (some true) hf hcall (hrun k (by omega)) hs hal hlaw h1 (hbs k (by omega))
        (hbs (k + 1) hk) p y y2 y5 (Ls k) (by rw [y4, v1]; exact hA) fl
      obtain ⟨u1, u2, u3, u4, u5⟩ := element_step_volume hf hcall (hrun k (by omega)) hs hal hlaw hreset (hbs k (by omega))
        (hbs (k + 1) hk) p y3
      have hdet : (w.1.F 0).det = ((bs (k + 1)).F p).det := by
        rw [w5, if_pos rfl, Matrix.det_mul, u1, v3]
        rcases hL with hL | hL
        · rw [hL]
        · rw [hL, ← Matrix.det_transpose]
          simp
      refine ⟨w, ?_, w2, u5, u4.trans y4, w3, ?_, ?_, hdet⟩
      · simp only [drive]
        rw [y1]
        exact w1
      · rw [w6, hdet, v2, u2]
      · rw [w4, v2, u3]
  obtain ⟨y, y1, -, -, -, y5, y6⟩ := key n le_rfl
  exact ⟨y, y1, y5, y6⟩

/-- **C130** for the elastic law: whatever update of the deformation the element test uses and whatever the volumes are, with
or without reset of the deformation, the element test has the stress and strain of the point after any number of steps. -/
theorem element_predicts_elastic (expm : Mat3 K → Mat3 K) (linear : Option Bool) (hf : ∀ f ∈ sv.forces, LibForce f) {call}
    (hcall : IsSolverCall fn sv call) (n : ℕ) (sts : ℕ → SimState z K dim SS (LawState K) (ForceState K dim))
    (hrun : ∀ k < n, call (sts k) = .ok (sts (k + 1))) {c : Coupling z} (hs : c.skip = false) (hal : Alone sv.couplings c)
    (E nu : K) (reset : Bool) (hlaw : sv.laws c.c = elasticLaw E nu reset) (h1 : z.np c.p ≠ 1)
    (bs : ℕ → MPState K dim (z.np c.p)) (hbs : ∀ k ≤ n, (sts k).world.bodies c.p = .deformable (bs k))
    (p : Fin (z.np c.p)) (x : MPState K dim 1 × LawState K) (hx : x.1.volScalar = false)
    (hsame : SameStress x (bs 0) ((sts 0).mech.laws c.c) p) (Ls : ℕ → Mat3 K)
    (hLs : ∀ k < n, Ls k = (bs (k + 1)).L p ∨ Ls k = ((bs (k + 1)).L p).transpose) (fl : Bool) :
    ∃ y, drive expm { law := sv.laws c.c, isFLinearApprox := fl } linear (fun k => (Ls k, (sts k).dt)) n x = .ok y ∧
      SameStress y (bs n) ((sts n).mech.laws c.c) p := by
  have key : ∀ k ≤ n, ∃ y, drive expm { law := sv.laws c.c, isFLinearApprox := fl } linear (fun k => (Ls k, (sts k).dt)) k x = .ok y ∧
      y.1.volScalar = false ∧ SameStress y (bs k) ((sts k).mech.laws c.c) p := by
    intro k
    induction k with
    | zero => intro _; exact ⟨x, rfl, hx, hsame⟩
    | succ k ih =>
      intro hk
      obtain ⟨y, y1, y2, y3⟩ := ih (by omega)
      obtain ⟨w, w1, w2, w3, -⟩ := element_step expm linear hf hcall (hrun k (by omega)) hs hal (hlaw ▸ LibLaw.elastic E nu reset) h1
        (hbs k (by omega)) (hbs (k + 1) hk) p y y2 y3 (Ls k)
        (by
          rw [hlaw]
          rcases hLs k (by omega) with h | h
          · rw [h]; exact (alike_elastic E nu reset _ _ _ _).1
          · rw [h]; exact (alike_elastic E nu reset _ _ _ _).2) fl
      refine ⟨w, ?_, w2, w3⟩
      simp only [drive]
      rw [y1]
      exact w1
  obtain ⟨y, y1, -, y3⟩ := key n le_rfl
  exact ⟨y, y1, y3⟩


/-- **C130 (exact lag)**: with the fluid law the element test answers with the pressure of the volume before the step. -/
theorem element_fluid_lag (expm : Mat3 K → Mat3 K) (linear : Option Bool) (hf : ∀ f ∈ sv.forces, LibForce f) {call}
    (hcall : IsSolverCall fn sv call) {st st' : SimState z K dim SS (LawState K) (ForceState K dim)} (h : call st = .ok st')
    {c : Coupling z} (hs : c.skip = false) (hal : Alone sv.couplings c) (pr : FluidParams K) (reset : Bool)
    (hlaw : sv.laws c.c = fluidLaw fn pr reset)
    {s s' : MPState K dim (z.np c.p)} (hb : st.world.bodies c.p = .deformable s) (hb' : st'.world.bodies c.p = .deformable s')
    (p : Fin (z.np c.p)) (x : MPState K dim 1 × LawState K) (hx : x.1.volScalar = false)
    (hsame : SameStress x s (st.mech.laws c.c) p) (hvol : x.1.volume 0 = s.volume p) :
    ∃ y ρ, st.mech.laws c.c = .density ρ ∧
      Driver.step expm { law := sv.laws c.c } x.1 x.2 (s'.L p) st.dt linear = .ok y ∧
      y.1.stress 0 = fluidStress fn pr (s'.L p) (s.mass p) (s.volume p) (ρ p) ∧
      s'.stress p = fluidStress fn pr (s'.L p) (s.mass p) (s'.volume p) (ρ p) := by
  obtain ⟨s0, t, r, hb0, ⟨d1, d2, d3, d4, d5, d6, d7⟩, hr, hbr, hlr⟩ := call_point hf hcall h hs hal
  have e0 : s0 = s := Body.deformable.inj (hb0.symm.trans hb)
  subst e0
  have e1 : s' = removeShear fn (sv.laws c.c).requiresFReset r.1 := Body.deformable.inj (hb'.symm.trans hbr)
  have hos := (hlaw ▸ LibLaw.fluid fn pr reset : LibLaw (sv.laws c.c)).onlyStress t _ _ r hr
  have q1 : s'.volume = t.volume ∧ s'.L = t.L ∧ s'.stress = r.1.stress := by
    rw [e1, hos]
    unfold removeShear
    split_ifs <;> exact ⟨rfl, rfl, rfl⟩
  obtain ⟨m1, m2, m3⟩ := hsame
  rw [hlaw] at hr
  cases hls : st.mech.laws c.c with
  | density ρ =>
    rw [hls] at hr m3
    simp only [fluidLaw] at hr
    split_ifs at hr
    have hr' := (Except.ok.inj hr).symm
    obtain ⟨xm, xe⟩ := x
    cases xe with
    | density ρ' =>
      simp only [lawAt, LawState.density.injEq] at m3
      have h0 := congrFun m3 0
      have hans : ∀ m, answer ((sv.laws c.c).update (onePoint m (s0.mass p) (s0.volume p) (s'.L p) (s0.stress p)) (.density ρ') st.dt) 0 =
          .ok (fluidStress fn pr (s'.L p) (s0.mass p) (s0.volume p) (ρ p), .density fun _ => ρ' 0) := by
        intro m
        rw [hlaw]
        simp only [answer, fluidLaw, onePoint, Bool.false_eq_true, ↓reduceIte, Except.map, lawAt, Fin.val_zero, h0]
      obtain ⟨y, y1, y2, -⟩ := driver_step_as_point expm { law := sv.laws c.c } linear (xm, .density ρ') hx (s'.L p)
        (s0.stress p) st.dt (s0.mass p) (s0.volume p) m1 hvol m2 _ hans
      refine ⟨y, ρ, rfl, y1, y2, ?_⟩
      rw [q1.2.2, hr', q1.1, q1.2.1, ← d1]
    | elastic _ => simp [lawAt] at m3
    | dp _ _ _ => simp [lawAt] at m3
    | mcc _ _ _ => simp [lawAt] at m3
  | elastic _ => rw [hls] at hr; simp [fluidLaw] at hr
  | dp _ _ _ => rw [hls] at hr; simp [fluidLaw] at hr
  | mcc _ _ _ => rw [hls] at hr; simp [fluidLaw] at hr

theorem fluid_pressure_strict (pr : FluidParams K) (hbulk : 0 < pr.bulk) (hone : fn.pow 1 pr.beta = 1)
    (hpow : ∀ a b, 0 < a → a < b → fn.pow a pr.beta < fn.pow b pr.beta) {rho rho' ref : K} (href : 0 < ref) (hlt : rho < rho')
    (hp : ref < rho') : fluidPressure fn pr rho ref < fluidPressure fn pr rho' ref := by
  have r1 : 1 < rho' / ref := by rwa [one_lt_div href]
  have hmax : max (rho' / ref) (1 / 10 ^ 6) = rho' / ref := by
    apply max_eq_left
    refine le_trans ?_ r1.le
    norm_num
  have hm : max (rho / ref) (1 / 10 ^ 6) < rho' / ref := by
    refine max_lt ((div_lt_div_iff_of_pos_right href).mpr hlt) (lt_trans ?_ r1)
    norm_num
  have hpos : 0 < max (rho / ref) ((1 : K) / 10 ^ 6) := lt_max_of_lt_right (by positivity)
  unfold fluidPressure
  simp only [hmax]
  have a1 := hpow _ _ hpos hm
  have a2 := hpow 1 _ one_pos r1
  rw [hone] at a2
  have a3 : 0 < pr.bulk * (fn.pow (rho' / ref) pr.beta - 1) := mul_pos hbulk (sub_pos.mpr a2)
  rw [max_eq_left a3.le]
  refine max_lt ?_ a3
  exact mul_lt_mul_of_pos_left (sub_lt_sub_right a1 1) hbulk

/-- **C130 (negation)**: a fluid point that a step compresses to a positive pressure ends with another stress than the element
test that was given the same state and the same velocity gradient. -/
theorem element_lags (expm : Mat3 K → Mat3 K) (linear : Option Bool) (hf : ∀ f ∈ sv.forces, LibForce f) {call}
    (hcall : IsSolverCall fn sv call) {st st' : SimState z K dim SS (LawState K) (ForceState K dim)} (h : call st = .ok st')
    {c : Coupling z} (hs : c.skip = false) (hal : Alone sv.couplings c) (pr : FluidParams K) (reset : Bool)
    (hlaw : sv.laws c.c = fluidLaw fn pr reset) (hbulk : 0 < pr.bulk) (hone : fn.pow 1 pr.beta = 1)
    (hpow : ∀ a b, 0 < a → a < b → fn.pow a pr.beta < fn.pow b pr.beta)
    {s s' : MPState K dim (z.np c.p)} (hb : st.world.bodies c.p = .deformable s) (hb' : st'.world.bodies c.p = .deformable s')
    (p : Fin (z.np c.p)) (x : MPState K dim 1 × LawState K) (hx : x.1.volScalar = false)
    (hsame : SameStress x s (st.mech.laws c.c) p) (hvol : x.1.volume 0 = s.volume p)
    (ρ : ℕ → K) (hρ : st.mech.laws c.c = .density ρ) (hρ0 : 0 < ρ p) (hmass : 0 < s.mass p)
    (hv' : 0 < s'.volume p) (hcomp : s'.volume p < s.volume p) (hdense : ρ p * s'.volume p < s.mass p) :
    ∃ y, Driver.step expm { law := sv.laws c.c } x.1 x.2 (s'.L p) st.dt linear = .ok y ∧ y.1.stress 0 ≠ s'.stress p := by
  obtain ⟨y, ρ', e1, e2, e3, e4⟩ := element_fluid_lag expm linear hf hcall h hs hal pr reset hlaw hb hb' p x hx hsame hvol
  rw [hρ] at e1
  have e1' : ρ = ρ' := LawState.density.inj e1
  subst e1'
  refine ⟨y, e2, ?_⟩
  rw [e3, e4]
  intro he
  have hlt := fluid_pressure_strict (fn := fn) pr hbulk hone hpow hρ0 (div_lt_div_of_pos_left hmass hv' hcomp)
    ((lt_div_iff₀ hv').mpr hdense)
  unfold fluidStress at he
  have he' := add_right_cancel he
  have := congrFun (congrFun he' 0) 0
  simp only [isoT, Matrix.smul_apply, Matrix.one_apply_eq, smul_eq_mul, mul_one, neg_inj] at this
  exact absurd this hlt.ne

end

/-- Point `p` of a body as a body of its own. -/
def Spec.elementOf {K : Type*} {dim n : ℕ} (s : MPState K dim n) (p : Fin n) : MPState K dim 1 :=
  { position := fun _ => s.position p, velocity := fun _ => s.velocity p, force := fun _ => s.force p, mass := fun _ => s.mass p
    volume := fun _ => s.volume p, volume0 := fun _ => s.volume0 p, L := fun _ => s.L p, stress := fun _ => s.stress p
    F := fun _ => s.F p, FStore := none, volScalar := false }

theorem trace_of_run {σ : Type*} {call : σ → Except PyErr σ} {st st' : σ} (n : ℕ) (h : runSteps call n st = .ok st') :
    ∃ sts : ℕ → σ, sts 0 = st ∧ sts n = st' ∧ ∀ k < n, call (sts k) = .ok (sts (k + 1)) := by
  induction n generalizing st' with
  | zero => exact ⟨fun _ => st, rfl, Except.ok.inj h, fun k hk => absurd hk (by omega)⟩
  | succ n ih =>
    obtain ⟨s1, h1, h2⟩ := runSteps_succ_ok.mp h
    obtain ⟨sts, a1, a2, a3⟩ := ih h1
    refine ⟨Function.update sts (n + 1) st', by simp [a1], by simp, ?_⟩
    intro k hk
    rw [Function.update_of_ne (by omega)]
    by_cases e : k = n
    · subst e
      rw [a2, Function.update_self, h2]
    · rw [Function.update_of_ne (by omega)]
      exact a3 k (by omega)

theorem exAlone (ker : Kernel) : Alone [exCoupling ker] (exCoupling ker) :=
  ⟨[], [], rfl, fun b hb => absurd hb (by simp)⟩

/-- Two steps of the example scene under gravity are repeated by an element test with the default exponential update (here
`expm` is any function) and with the linear one. -/
example (expm : Mat3 ℚ → Mat3 ℚ) : ∃ (sts : ℕ → SimState exSz ℚ 2 Unit (LawState ℚ) (ForceState ℚ 2)) (bs : ℕ → MPState ℚ 2 2),
    sts 0 = exState ∧ bs 0 = exBody ∧ (∀ k < 2, uslCall ratFns (exSolver .linear false) (sts k) = .ok (sts (k + 1))) ∧
    (∀ linear, ∃ y, drive expm { law := elasticLaw 1000 (1 / 4) false } linear (fun k => ((bs (k + 1)).L 0, (sts k).dt)) 2
      (elementOf exBody 0, .elastic fun _ => 0) = .ok y ∧ SameStress y (bs 2) ((sts 2).mech.laws (0 : Fin 1)) 0) ∧
    ∃ y, drive expm { law := elasticLaw 1000 (1 / 4) false } (some true) (fun k => ((bs (k + 1)).L 0, (sts k).dt)) 2
      (elementOf exBody 0, .elastic fun _ => 0) = .ok y ∧ SameStress y (bs 2) ((sts 2).mech.laws (0 : Fin 1)) 0 ∧
        SameVolume y (bs 2) 0 := by
  have hf : ∀ f ∈ (exSolver .linear false).forces, LibForce f := by
    intro f hf
    rw [exSolver_forces, List.mem_singleton] at hf
    rw [hf]; exact .gravity _ _ _ _
  obtain ⟨st2, h2⟩ := exRun_ok false
  obtain ⟨sts, a1, a2, a3⟩ := trace_of_run 2 h2
  have hb : ∀ k, ∃ b : MPState ℚ 2 2, k ≤ 2 → (sts k).world.bodies (0 : Fin 1) = .deformable b := by
    intro k
    cases k with
    | zero => exact ⟨exBody, fun _ => by rw [a1]; rfl⟩
    | succ k =>
      by_cases hk : k < 2
      · obtain ⟨s, t, r, -, -, -, hbr, -⟩ := call_point (c := exCoupling .linear) hf (.inl rfl) (a3 k hk) rfl (exAlone _)
        exact ⟨_, fun _ => hbr⟩
      · exact ⟨exBody, fun h => absurd h (by omega)⟩
  choose bs hbs using hb
  have hb0 : bs 0 = exBody := by
    have := hbs 0 (by omega)
    rw [a1] at this
    exact (Body.deformable.inj this).symm
  have hsame : SameStress (elementOf exBody 0, (.elastic fun _ => 0 : LawState ℚ)) (bs 0) ((sts 0).mech.laws (0 : Fin 1)) 0 := by
    rw [hb0, a1]; exact ⟨rfl, rfl, rfl⟩
  refine ⟨sts, bs, a1, hb0, a3, fun linear => ?_, ?_⟩
  · exact element_predicts_elastic (c := exCoupling .linear) expm linear hf (.inl rfl) 2 sts a3 rfl (exAlone _) 1000 (1 / 4) false rfl
      (by decide) bs hbs (0 : Fin 2) _ rfl hsame _ (fun k _ => .inl rfl) false
  · exact element_predicts_run_partial (c := exCoupling .linear) expm hf (.inl rfl) 2 sts a3 rfl (exAlone _) (LibLaw.elastic _ _ _) rfl
      (by decide) bs hbs (0 : Fin 2) (by intro _; rw [hb0]; decide +kernel) _ rfl hsame (by rw [hb0]; exact ⟨rfl, rfl, rfl⟩) _
      (fun k _ => ⟨.inl rfl, (alike_elastic _ _ _ _ _ _ _).1⟩) false

/-- The example body as a fluid. -/
def exFluid : Solver exSz ℚ 2 Unit (LawState ℚ) (ForceState ℚ 2) :=
  { exSolver .linear false with laws := fun _ => fluidLaw ratFns { bulk := 10, viscosity := 1, beta := 1 } false }

def exFluidState : SimState exSz ℚ 2 Unit (LawState ℚ) (ForceState ℚ 2) :=
  { exState with mech := { exState.mech with laws := fun _ => .density fun _ => 1 } }

set_option maxRecDepth 100000 in
theorem exFluid_compressed :
    (match probe (uslCall ratFns exFluid exFluidState) (0 : Fin 1) (fun s => s.volume (0 : Fin 2)) with
      | some v => decide (0 < v) && decide (v < 1 / 4)
      | none => false) = true := by decide +kernel

/-- The first step compresses the first point of the fluid: its stress is not that of the element test. -/
example (expm : Mat3 ℚ → Mat3 ℚ) (linear : Option Bool) :
    ∃ st' s' y, uslCall ratFns exFluid exFluidState = .ok st' ∧ st'.world.bodies (0 : Fin 1) = .deformable s' ∧
      Driver.step expm { law := exFluid.laws (0 : Fin 1) } (elementOf exBody 0) (.density fun _ => 1) (s'.L (0 : Fin 2)) (1 / 100) linear = .ok y ∧
      y.1.stress 0 ≠ s'.stress (0 : Fin 2) := by
  have hf : ∀ f ∈ exFluid.forces, LibForce f := by
    intro f hf
    change f ∈ (exSolver .linear false).forces at hf
    rw [exSolver_forces, List.mem_singleton] at hf
    rw [hf]; exact .gravity _ _ _ _
  have hv := exFluid_compressed
  cases h : uslCall ratFns exFluid exFluidState with
  | error e => rw [h] at hv; exact absurd hv (by simp [probe])
  | ok st' =>
    rw [h] at hv
    cases hb : st'.world.bodies (0 : Fin 1) with
    | rigid _ => simp only [probe, hb] at hv; exact absurd hv (by simp)
    | deformable s' =>
      simp only [probe, hb, Bool.and_eq_true, decide_eq_true_eq] at hv
      have hm : exBody.mass 0 = 1 := by decide +kernel
      obtain ⟨y, y1, y2⟩ := element_lags (c := exCoupling .linear) expm linear hf (.inl rfl) h rfl (exAlone _)
        { bulk := 10, viscosity := 1, beta := 1 } false rfl (by norm_num) rfl (fun a b _ h => h) (s := exBody) rfl hb (0 : Fin 2)
        (elementOf exBody 0, .density fun _ => 1) rfl ⟨rfl, rfl, rfl⟩ rfl (fun _ => 1) rfl one_pos
        (by rw [hm]; exact one_pos) hv.1
        (by have : exBody.volume 0 = 1 / 4 := by decide +kernel
            rw [this]; exact hv.2)
        (by rw [hm, one_mul]; exact lt_trans hv.2 (by norm_num))
      exact ⟨st', s', y, rfl, hb, y1, y2⟩

/-- The assumptions on the power hold for the real power with a positive exponent. -/
example (beta : ℝ) (h : 0 < beta) : realFns.pow 1 beta = 1 ∧ ∀ a b : ℝ, 0 < a → a < b → realFns.pow a beta < realFns.pow b beta :=
  ⟨Real.one_rpow _, fun _ _ ha hab => Real.rpow_lt_rpow ha.le hab h⟩

end Hydrax
