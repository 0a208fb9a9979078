import Verif.Lemmas.ContScene
import Verif.Props.Continuity
import Verif.Props.DruckerPrager

/-!
# Calls depending continuously on a parameter (helper lemmas)
-/

set_option linter.unusedSectionVars false

namespace Hydrax

open Spec Filter Topology

section
variable {T : Type*} [TopologicalSpace T] {t0 : T} {dim n : ℕ}

namespace Spec

/-- A body varies continuously at `t0` and keeps its kind. -/
def BodyCont (b : T → Body ℝ dim n) (t0 : T) : Prop :=
  (∃ s, (∀ t, b t = .deformable (s t)) ∧ MPCont s t0) ∨
  ∃ r : T → RigidState ℝ dim n, (∀ t, b t = .rigid (r t)) ∧ (∀ q a, ContinuousAt (fun t => (r t).position q a) t0) ∧
    (∀ q a, ContinuousAt (fun t => (r t).velocity q a) t0) ∧ (∀ q, ContinuousAt (fun t => (r t).mass q) t0) ∧
    ∀ q a, ContinuousAt (fun t => (r t).normal q a) t0

/-- The state of a law varies continuously at `t0`: the reference stresses, the reference densities or the elastic strains and reference
pressures do, or nothing varies. Nothing is asked of the accumulated plastic strain, which may jump (`dp_plastic_strain_jumps`). -/
def LawCont (ls : T → LawState ℝ) (t0 : T) : Prop :=
  (∃ r : T → ℕ → Mat3 ℝ, (∀ t, ls t = .elastic (r t)) ∧ ∀ i a b, ContinuousAt (fun t => r t i a b) t0) ∨
  (∃ r : T → ℕ → ℝ, (∀ t, ls t = .density (r t)) ∧ ∀ i, ContinuousAt (fun t => r t i) t0) ∨
  (∃ (e : T → ℕ → Mat3 ℝ) (a p : T → ℕ → ℝ), (∀ t, ls t = .dp (e t) (a t) (p t)) ∧ (∀ i j k, ContinuousAt (fun t => e t i j k) t0) ∧
    ∀ i, ContinuousAt (fun t => p t i) t0) ∨
  ∀ t, ls t = ls t0

/-- The states of the forces vary continuously at `t0`: accelerations of gravity do, the rest does not vary. -/
def ForcesCont (fs : T → List (ForceState ℝ dim)) (t0 : T) : Prop :=
  ∀ k : ℕ, (∃ v : T → Fin dim → ℝ, (∀ t, (fs t)[k]? = some (ForceState.gravity (v t))) ∧ ∀ a, ContinuousAt (fun t => v t a) t0) ∨
    ∀ t, (fs t)[k]? = (fs t0)[k]?

/-- State `s` of a body with state `ls` of the law is no place where the stress of the law jumps. -/
inductive LawClear : Law ℝ dim (LawState ℝ) → {n : ℕ} → MPState ℝ dim n → LawState ℝ → Prop
  | elastic (E nu reset) {n : ℕ} (s : MPState ℝ dim n) (ls) : LawClear (elasticLaw E nu reset) s ls
  | fluid (pr reset) {n : ℕ} (s : MPState ℝ dim n) (r) (hv : ∀ q, s.volume q ≠ 0) (hr : ∀ q : Fin n, r q.val ≠ 0) :
    LawClear (fluidLaw realFns pr reset) s (.density r)
  | muI (pr : MuIParams ℝ) (ha : pr.alpha ≠ 0) (hI : 0 < pr.I0) (hrho : 0 < pr.rhoP) (hd : 0 ≤ pr.dP) (hp : 0 < pr.pMin) (reset)
    {n : ℕ} (s : MPState ℝ dim n) (r) (hv : ∀ q, s.volume q ≠ 0) (hr : ∀ q : Fin n, r q.val ≠ 0)
    (h1 : ∀ q : Fin n, s.mass q / s.volume q / r q.val ≠ 1) : LawClear (muILaw realFns pr reset) s (.density r)
  | dp (pr : DPParams ℝ) (hK : pr.bulk ≠ 0) (hG : 0 < pr.shear) (hhat : pr.mu1Hat = 0) (hH : pr.H = 0) (reset) {n : ℕ} (s : MPState ℝ dim n)
    (e a p) (hv : ∀ q, s.volume q + 1 / 10 ^ 16 ≠ 0) (h1 : ∀ q, s.density q ≠ pr.rho0) : LawClear (dpLaw realFns pr reset) s (.dp e a p)

end Spec

/-- A family of results: all fail alike, or all succeed with property `R`. -/
def FamE {α : Type*} (R : (T → α) → Prop) (x : T → Except PyErr α) : Prop :=
  (∃ e, ∀ t, x t = .error e) ∨ ∃ y, (∀ t, x t = .ok (y t)) ∧ R y

theorem FamE.andThen {α β : Type*} {R : (T → α) → Prop} {R' : (T → β) → Prop} {x : T → Except PyErr α} {f : T → α → Except PyErr β}
    (hx : FamE R x) (hf : ∀ y, (∀ t, x t = .ok (y t)) → R y → FamE R' (fun t => f t (y t))) :
    FamE R' (fun t => Hydrax.andThen (x t) (f t)) := by
  rcases hx with ⟨e, he⟩ | ⟨y, hy, hR⟩
  · refine .inl ⟨e, fun t => ?_⟩
    simp only [he t, Hydrax.andThen]
  · rcases hf y hy hR with ⟨e, he⟩ | ⟨w, hw, hR'⟩
    · refine .inl ⟨e, fun t => ?_⟩
      simp only [hy t, Hydrax.andThen]; exact he t
    · refine .inr ⟨w, fun t => ?_, hR'⟩
      simp only [hy t, Hydrax.andThen]; exact hw t

theorem FamE.foldE {σ α : Type*} {R : (T → σ) → List α → Prop} {f : T → σ → α → Except PyErr σ} {l : List α}
    (hf : ∀ c l x, R x (c :: l) → FamE (fun y => R y l) (fun t => f t (x t) c)) {x : T → σ} (hx : R x l) :
    FamE (fun y => R y []) (fun t => Hydrax.foldE (f t) (x t) l) := by
  induction l generalizing x with
  | nil => exact .inr ⟨x, fun _ => rfl, hx⟩
  | cons c l ih =>
    rcases hf c l x hx with ⟨e, he⟩ | ⟨y, hy, hR⟩
    · refine .inl ⟨e, fun t => ?_⟩
      have : f t (x t) c = .error e := he t
      simp only [Hydrax.foldE, this]
    · have hy' : ∀ t, f t (x t) c = .ok (y t) := hy
      rcases ih hR with ⟨e, he⟩ | ⟨w, hw, hR'⟩
      · refine .inl ⟨e, fun t => ?_⟩
        simp only [Hydrax.foldE, hy']; exact he t
      · refine .inr ⟨w, fun t => ?_, hR'⟩
        simp only [Hydrax.foldE, hy']; exact hw t

theorem FamE.ok {α : Type*} {R : (T → α) → Prop} {y : T → α} (h : R y) : FamE R (fun t => .ok (y t)) := .inr ⟨y, fun _ => rfl, h⟩

theorem FamE.error {α : Type*} {R : (T → α) → Prop} (e : PyErr) : FamE R (fun _ : T => (.error e : Except PyErr α)) := .inl ⟨e, fun _ => rfl⟩

theorem FamE.of_ok {α : Type*} {R : (T → α) → Prop} {x : T → Except PyErr α} (h : FamE R x) {a : α} (ha : x t0 = .ok a) :
    ∃ y, (∀ t, x t = .ok (y t)) ∧ y t0 = a ∧ R y := by
  rcases h with ⟨e, he⟩ | ⟨y, hy, hR⟩
  · rw [he t0] at ha; exact absurd ha (by simp)
  · rw [hy t0] at ha; exact ⟨y, hy, Except.ok.inj ha, hR⟩

/-! ### Laws -/

theorem continuous_cbrt : Continuous realFns.cbrt := by
  have h : Continuous fun x : ℝ => if 0 ≤ x then x ^ (1 / 3 : ℝ) else -((-x) ^ (1 / 3 : ℝ)) := by
    refine Continuous.if_le ?_ ?_ continuous_const continuous_id ?_
    · exact Real.continuous_rpow_const (by norm_num)
    · exact ((Real.continuous_rpow_const (by norm_num)).comp continuous_neg).neg
    · rintro x rfl
      rw [neg_zero, Real.zero_rpow (by norm_num), neg_zero]
  exact h

theorem cont_removeShear (reset : Bool) {s : T → MPState ℝ dim n} (hs : MPCont s t0) :
    MPCont (fun t => removeShear realFns reset (s t)) t0 := by
  cases reset with
  | false => exact hs
  | true =>
    refine ⟨hs.position, hs.velocity, hs.force, hs.mass, hs.volume, hs.volume0, hs.L, hs.stress, fun q i j => ?_, hs.shape⟩
    have hd := cont_det (hs.F q)
    have h1 : ContinuousAt (fun t => realFns.sqrt ((s t).F q).det) t0 := Real.continuous_sqrt.continuousAt.comp hd
    have h2 : ContinuousAt (fun t => realFns.cbrt ((s t).F q).det) t0 := continuous_cbrt.continuousAt.comp hd
    have key : ContinuousAt (fun t => cbar realFns dim ((s t).F q) i j) t0 := by
      unfold cbar
      refine cont_mite ?_ ?_
      · by_cases hij : i = j
        · subst hij
          simp only [Matrix.diagonal_apply_eq]
          fin_cases i
          · exact h1
          · exact h1
          · exact continuousAt_const
        · simp only [Matrix.diagonal_apply_ne _ hij]; exact continuousAt_const
      · exact h2.mul continuousAt_const
    exact key

theorem cont_mat {M : T → Mat3 ℝ} (h : ∀ i j, ContinuousAt (fun t => M t i j) t0) : ContinuousAt M t0 :=
  continuousAt_pi.2 fun i => continuousAt_pi.2 fun j => h i j

theorem cont_entry {M : T → Mat3 ℝ} (h : ContinuousAt M t0) (i j : Fin 3) : ContinuousAt (fun t => M t i j) t0 :=
  continuousAt_pi.1 (continuousAt_pi.1 h i) j

/-- The velocity gradient and the time step enter by their product. -/
theorem dpUpdate_scale (pr : DPParams ℝ) (L e : Mat3 ℝ) (a p0 rho dt : ℝ) :
    dpUpdate realFns pr L e a p0 rho dt = dpUpdate realFns pr (dt • L) e a p0 rho 1 := by
  have h1 : (1 : ℝ) • symTensor (dt • L) = dt • symTensor L := by
    simp only [symTensor, Matrix.transpose_smul, one_smul, ← smul_add]; rw [smul_comm]
  have h2 : jaumann e (spinTensor (dt • L)) 1 = jaumann e (spinTensor L) dt := by
    have : spinTensor (dt • L) = dt • spinTensor L := by
      simp only [spinTensor, Matrix.transpose_smul, ← smul_sub]; rw [smul_comm]
    simp only [jaumann, this, one_smul, Matrix.smul_mul, Matrix.mul_smul, ← smul_sub]
  have : dpTrial realFns pr L e a p0 dt = dpTrial realFns pr (dt • L) e a p0 1 := by
    simp only [dpTrial, h1, h2]
  simp only [dpUpdate, this]

/-- Without hardening the accumulated plastic strain does not matter. -/
theorem dpUpdate_epsP (pr : DPParams ℝ) (hH : pr.H = 0) (L e : Mat3 ℝ) (a p0 rho dt : ℝ) :
    (dpUpdate realFns pr L e a p0 rho dt).stress = (dpUpdate realFns pr L e 0 p0 rho dt).stress := by
  have : dpTrial realFns pr L e a p0 dt = dpTrial realFns pr L e 0 p0 dt := by simp only [dpTrial, hH, zero_mul]
  simp only [dpUpdate, this]
  split_ifs
  · simp only [dpApex, hH, zero_mul]
  · rfl
  · rfl
  · rfl

/-- Along a family of inputs that is continuous where the density is not the density of separation, the stress and the elastic strain of
Drucker-Prager material without dilatancy and hardening are continuous. -/
theorem dp_cont_family (pr : DPParams ℝ) (hK : pr.bulk ≠ 0) (hG : 0 < pr.shear) (hhat : pr.mu1Hat = 0) (hH : pr.H = 0) {L e : T → Mat3 ℝ}
    {a p0 rho dt : T → ℝ} (hL : ContinuousAt L t0) (he : ContinuousAt e t0) (hp : ContinuousAt p0 t0) (hr : ContinuousAt rho t0)
    (hdt : ContinuousAt dt t0) (h : rho t0 ≠ pr.rho0) :
    ContinuousAt (fun t => (dpUpdate realFns pr (L t) (e t) (a t) (p0 t) (rho t) (dt t)).stress) t0 ∧
    ContinuousAt (fun t => (dpUpdate realFns pr (L t) (e t) (a t) (p0 t) (rho t) (dt t)).epsE) t0 := by
  have hs : ∀ r, ContinuousAt (fun t => (dpUpdate realFns pr (L t) (e t) (a t) (p0 t) r (dt t)).stress) t0 := fun r => by
    have e1 : (fun t => (dpUpdate realFns pr (L t) (e t) (a t) (p0 t) r (dt t)).stress) =
        fun t => (dpUpdate realFns pr (dt t • L t) (e t) 0 (p0 t) r 1).stress := by
      funext t; rw [dpUpdate_scale, dpUpdate_epsP _ hH]
    rw [e1]
    exact (dp_continuous_partial pr hG hhat hH r 1).continuousAt.comp (f := fun t => (dt t • L t, e t, (0 : ℝ), p0 t))
      ((hdt.smul hL).prodMk (he.prodMk (continuousAt_const.prodMk hp)))
  rcases lt_or_gt_of_ne h with hlt | hgt
  · have hev : ∀ᶠ t in 𝓝 t0, rho t < pr.rho0 := hr.eventually (gt_mem_nhds hlt)
    constructor
    · refine (continuousAt_const (y := (0 : Mat3 ℝ))).congr (EventuallyEq.symm ?_)
      filter_upwards [hev] with t ht
      exact ((dp_stress_strain_consistent realFns pr hK hG.ne' (L t) (e t) (a t) (p0 t) (rho t) (dt t)).2 ht).1
    · refine (continuousAt_const (y := (0 : Mat3 ℝ))).congr (EventuallyEq.symm ?_)
      filter_upwards [hev] with t ht
      exact ((dp_stress_strain_consistent realFns pr hK hG.ne' (L t) (e t) (a t) (p0 t) (rho t) (dt t)).2 ht).2
  · have hev : ∀ᶠ t in 𝓝 t0, pr.rho0 < rho t := hr.eventually (lt_mem_nhds hgt)
    have hst : ContinuousAt (fun t => (dpUpdate realFns pr (L t) (e t) (a t) (p0 t) (rho t) (dt t)).stress) t0 := by
      refine (hs (rho t0)).congr ?_
      filter_upwards [hev] with t ht
      simp only [dpUpdate, if_pos hgt.le, if_pos (show rho t ≥ pr.rho0 from ht.le)]
    refine ⟨hst, ?_⟩
    have hinv : ContinuousAt (fun t => (1 / (2 * pr.shear)) • ((dpUpdate realFns pr (L t) (e t) (a t) (p0 t) (rho t) (dt t)).stress -
        ((dpUpdate realFns pr (L t) (e t) (a t) (p0 t) (rho t) (dt t)).stress.trace / 3) • (1 : Mat3 ℝ)) +
        (((dpUpdate realFns pr (L t) (e t) (a t) (p0 t) (rho t) (dt t)).stress.trace / 3 - p0 t) / pr.bulk / 3) • (1 : Mat3 ℝ)) t0 := by
      have htr : ContinuousAt (fun t => (dpUpdate realFns pr (L t) (e t) (a t) (p0 t) (rho t) (dt t)).stress.trace) t0 :=
        (continuous_id.matrix_trace).continuousAt.comp hst
      have hpi : ∀ {f : T → ℝ}, ContinuousAt f t0 → ContinuousAt (fun t => f t • (1 : Mat3 ℝ)) t0 := fun hf => hf.smul continuousAt_const
      have h5 := continuousAt_const (y := 1 / (2 * pr.shear)).smul (hst.sub (hpi (htr.div_const 3)))
      exact h5.add (hpi ((((htr.div_const 3).sub hp).div_const pr.bulk).div_const 3))
    refine hinv.congr ?_
    filter_upwards [hev] with t ht
    have hc := (dp_stress_strain_consistent realFns pr hK hG.ne' (L t) (e t) (a t) (p0 t) (rho t) (dt t)).1 ht.le
    generalize (dpUpdate realFns pr (L t) (e t) (a t) (p0 t) (rho t) (dt t)).stress = σ at hc ⊢
    generalize (dpUpdate realFns pr (L t) (e t) (a t) (p0 t) (rho t) (dt t)).epsE = ε at hc ⊢
    have h3 : σ.trace / 3 = pr.bulk * ε.trace + p0 t := by
      rw [hc]
      simp only [Matrix.trace_fin_three, Matrix.add_apply, Matrix.smul_apply, Spec.dev, Spec.meanStress, if_true, smul_eq_mul,
        Matrix.one_apply_eq]
      ring
    rw [h3, hc]
    have hGn := hG.ne'
    ext i j
    simp only [Matrix.add_apply, Matrix.smul_apply, Matrix.sub_apply, smul_eq_mul, Spec.dev, Spec.meanStress, Matrix.one_apply,
      Matrix.trace_fin_three]
    split_ifs
    · field_simp; ring
    · field_simp; ring

theorem Spec.LawClear.cont {law : Law ℝ dim (LawState ℝ)} {s : T → MPState ℝ dim n} {ls : T → LawState ℝ} {dt : T → ℝ}
    (h : LawClear law (s t0) (ls t0)) (hs : MPCont s t0) (hl : LawCont ls t0) (hdt : ContinuousAt dt t0) :
    FamE (fun y : T → MPState ℝ dim n × LawState ℝ => MPCont (fun t => (y t).1) t0 ∧ LawCont (fun t => (y t).2) t0)
      (fun t => law.update (s t) (ls t) (dt t)) := by
  have dens : ∀ r, ls t0 = .density r → ∃ r' : T → ℕ → ℝ, (∀ t, ls t = .density (r' t)) ∧ (∀ i, ContinuousAt (fun t => r' t i) t0) ∧ r' t0 = r := by
    intro r hr
    rcases hl with ⟨r', h1, h2⟩ | ⟨r', h1, h2⟩ | ⟨_, _, _, h1, -⟩ | h1
    · rw [h1 t0] at hr; exact absurd hr (by simp)
    · refine ⟨r', h1, h2, ?_⟩
      rw [h1 t0] at hr; exact LawState.density.inj hr
    · rw [h1 t0] at hr; exact absurd hr (by simp)
    · exact ⟨fun _ => r, fun t => by rw [h1 t, hr], fun _ => continuousAt_const, rfl⟩
  have stress : ∀ σ : T → Fin n → Mat3 ℝ, (∀ q i j, ContinuousAt (fun t => σ t q i j) t0) →
      MPCont (fun t => { s t with stress := σ t }) t0 := fun σ hσ =>
    ⟨hs.position, hs.velocity, hs.force, hs.mass, hs.volume, hs.volume0, hs.L, hσ, hs.F, hs.shape⟩
  generalize hs0 : s t0 = s0 at h
  generalize hl0 : ls t0 = l0 at h
  cases h with
  | elastic E nu reset =>
    refine .ok ⟨stress _ fun q => cont_entry ?_, hl⟩
    exact (elastic_continuous E nu).continuousAt.comp (f := fun t => ((s t).L q, (s t).stress q, dt t))
      ((cont_mat (hs.L q)).prodMk ((cont_mat (hs.stress q)).prodMk hdt))
  | fluid pr reset _ r hv hr =>
    obtain ⟨r', h1, h2, rfl⟩ := dens r hl0
    have e : (fun t => (fluidLaw realFns pr reset).update (s t) (ls t) (dt t)) = fun t =>
        if (s t0).volScalar then .error .valueError else
          .ok ({ s t with stress := fun p => fluidStress realFns pr ((s t).L p) ((s t).mass p) ((s t).volume p) (r' t p.val) }, ls t) := by
      funext t
      rw [← hs.shape t, h1 t]
      rfl
    rw [e]
    split_ifs
    · exact .error _
    · refine .ok ⟨stress _ fun q => cont_entry ?_, hl⟩
      exact (fluid_continuousAt pr ((s t0).L q, (s t0).mass q, (s t0).volume q, r' t0 q.val) (by rw [hs0]; exact hv q) (hr q)).comp
        (f := fun t => ((s t).L q, (s t).mass q, (s t).volume q, r' t q.val))
        ((cont_mat (hs.L q)).prodMk ((hs.mass q).prodMk ((hs.volume q).prodMk (h2 q.val))))
  | dp pr hK hG hhat hH reset _ e0 a0 p0 hv h1 =>
    have hdp : ∃ (e : T → ℕ → Mat3 ℝ) (a p : T → ℕ → ℝ), (∀ t, ls t = .dp (e t) (a t) (p t)) ∧ (∀ i j k, ContinuousAt (fun t => e t i j k) t0) ∧
        ∀ i, ContinuousAt (fun t => p t i) t0 := by
      rcases hl with ⟨r', g1, g2⟩ | ⟨r', g1, g2⟩ | h | g1
      · rw [g1 t0] at hl0; exact absurd hl0 (by simp)
      · rw [g1 t0] at hl0; exact absurd hl0 (by simp)
      · exact h
      · exact ⟨fun _ => e0, fun _ => a0, fun _ => p0, fun t => by rw [g1 t, hl0], fun _ _ _ => continuousAt_const, fun _ => continuousAt_const⟩
    obtain ⟨e, a, p, g1, g2, g3⟩ := hdp
    have hfam : ∀ q : Fin n, _ := fun q => dp_cont_family pr hK hG hhat hH (a := fun t => a t q.val) (rho := fun t => (s t).density q) (cont_mat (hs.L q)) (cont_mat (g2 q.val)) (g3 q.val)
      ((hs.mass q).div ((hs.volume q).add continuousAt_const) (by rw [hs0]; exact hv q)) hdt (by rw [hs0]; exact h1 q)
    have e1 : (fun t => (dpLaw realFns pr reset).update (s t) (ls t) (dt t)) = fun t =>
          .ok ({ s t with stress := fun q => (dpUpdate realFns pr ((s t).L q) (e t q.val) (a t q.val) (p t q.val) ((s t).density q) (dt t)).stress },
            .dp (ofFin 0 fun q : Fin n => (dpUpdate realFns pr ((s t).L q) (e t q.val) (a t q.val) (p t q.val) ((s t).density q) (dt t)).epsE)
              (ofFin 0 fun q : Fin n => (dpUpdate realFns pr ((s t).L q) (e t q.val) (a t q.val) (p t q.val) ((s t).density q) (dt t)).epsP) (p t)) := by
      funext t
      rw [g1 t]
      rfl
    rw [e1]
    refine .ok ⟨stress _ fun q => cont_entry (hfam q).1, .inr (.inr (.inl ⟨_, _, _, fun t => rfl, fun i j k => ?_, g3⟩))⟩
    unfold ofFin
    by_cases hi : i < n
    · simp only [dif_pos hi]; exact cont_entry (hfam ⟨i, hi⟩).2 j k
    · simp only [dif_neg hi]; exact continuousAt_const
  | muI pr ha hI hrho hd hp reset _ r hv hr h3 =>
    obtain ⟨r', h1, h2, rfl⟩ := dens r hl0
    have e : (fun t => (muILaw realFns pr reset).update (s t) (ls t) (dt t)) = fun t =>
        if (s t0).volScalar then .error .valueError else
          .ok ({ s t with stress := fun p => muIStress realFns pr ((s t).L p) ((s t).mass p) ((s t).volume p) (r' t p.val) }, ls t) := by
      funext t
      rw [← hs.shape t, h1 t]
      rfl
    rw [e]
    split_ifs
    · exact .error _
    · refine .ok ⟨stress _ fun q => cont_entry ?_, hl⟩
      exact (muI_continuousAt pr ha hI hrho hd hp ((s t0).L q, (s t0).mass q, (s t0).volume q, r' t0 q.val) (by rw [hs0]; exact hv q) (hr q)
          (by rw [hs0]; exact h3 q)).comp
        (f := fun t => ((s t).L q, (s t).mass q, (s t).volume q, r' t q.val))
        ((cont_mat (hs.L q)).prodMk ((hs.mass q).prodMk ((hs.volume q).prodMk (h2 q.val))))

/-- Two states of a law: equal, or both of Drucker-Prager material. -/
def Spec.SameKind (ls ls' : LawState ℝ) : Prop := ls = ls' ∨ ∃ e a p e' a' p', ls = .dp e a p ∧ ls' = .dp e' a' p'

theorem Spec.SameKind.symm {ls ls' : LawState ℝ} (h : SameKind ls ls') : SameKind ls' ls := by
  rcases h with h | ⟨_, _, _, _, _, _, h1, h2⟩
  · exact .inl h.symm
  · exact .inr ⟨_, _, _, _, _, _, h2, h1⟩

theorem Spec.SameKind.trans {a b c : LawState ℝ} (h : SameKind a b) (h' : SameKind b c) : SameKind a c := by
  rcases h with rfl | ⟨_, _, _, _, _, _, h1, h2⟩
  · exact h'
  · rcases h' with rfl | ⟨_, _, _, _, _, _, h3, h4⟩
    · exact .inr ⟨_, _, _, _, _, _, h1, h2⟩
    · exact .inr ⟨_, _, _, _, _, _, h1, h4⟩

theorem Spec.LawClear.of_kind {law : Law ℝ dim (LawState ℝ)} {u : MPState ℝ dim n} {ls ls' : LawState ℝ} (h : LawClear law u ls)
    (hk : SameKind ls ls') : LawClear law u ls' := by
  rcases hk with rfl | ⟨_, _, _, e, a, p, h1, rfl⟩
  · exact h
  · cases h with
    | elastic => exact .elastic ..
    | fluid => exact absurd h1 (by simp)
    | muI => exact absurd h1 (by simp)
    | dp pr hK hG hhat hH reset _ _ _ _ hv hr => exact .dp pr hK hG hhat hH reset u e a p hv hr

/-- These laws keep masses and volumes and the kind of their state. -/
theorem Spec.LawClear.keeps {law : Law ℝ dim (LawState ℝ)} {m : ℕ} {s' : MPState ℝ dim m} {ls' : LawState ℝ} (h : LawClear law s' ls')
    {s : MPState ℝ dim n} {ls : LawState ℝ} {dt : ℝ} {r} (hr : law.update s ls dt = .ok r) :
    r.1.mass = s.mass ∧ r.1.volume = s.volume ∧ SameKind r.2 ls := by
  cases h with
  | elastic => rw [← Except.ok.inj hr]; exact ⟨rfl, rfl, .inl rfl⟩
  | fluid =>
    cases ls <;> simp only [fluidLaw, reduceCtorEq] at hr
    split_ifs at hr
    rw [← Except.ok.inj hr]; exact ⟨rfl, rfl, .inl rfl⟩
  | muI =>
    cases ls <;> simp only [muILaw, reduceCtorEq] at hr
    split_ifs at hr
    rw [← Except.ok.inj hr]; exact ⟨rfl, rfl, .inl rfl⟩
  | dp pr hK hG hhat hH reset =>
    cases ls <;> simp only [dpLaw, reduceCtorEq] at hr
    rw [← Except.ok.inj hr]
    exact ⟨rfl, rfl, .inr ⟨_, _, _, _, _, _, rfl, rfl⟩⟩

theorem Spec.LawClear.of_same {law : Law ℝ dim (LawState ℝ)} {s s' : MPState ℝ dim n} {ls : LawState ℝ} (h : LawClear law s ls)
    (hm : s.mass = s'.mass) (hv : s.volume = s'.volume) : LawClear law s' ls := by
  cases h with
  | elastic => exact .elastic ..
  | fluid _ _ _ r h1 h2 => exact .fluid _ _ _ r (by rwa [← hv]) h2
  | muI _ a b c d e _ _ r h1 h2 h3 => exact .muI _ a b c d e _ _ r (by rwa [← hv]) h2 (by rwa [← hv, ← hm])
  | dp _ a b c d _ _ e f g h1 h2 => exact .dp _ a b c d _ _ e f g (by rwa [← hv]) (by simpa only [MPState.density, ← hv, ← hm] using h2)

end

/-! ### The stages of a call -/

section
variable {T : Type*} [TopologicalSpace T] {t0 : T} {z : Sz} {dim : ℕ} {SS : Type*}

/-- The intermediate states of a call vary continuously. -/
structure CtxCont (dom : Fin z.G → GridDomain ℝ dim) (cs : List (Coupling z)) (x : T → Ctx z ℝ dim SS (LawState ℝ) (ForceState ℝ dim))
    (t0 : T) : Prop where
  bodies : ∀ p, BodyCont (fun t => (x t).world.bodies p) t0
  laws : ∀ c, LawCont (fun t => (x t).mech.laws c) t0
  forces : ForcesCont (fun t => (x t).mech.forces) t0
  grids : ∀ g, GridCont (fun t => (x t).cache.grids g) t0
  inter : ∀ c ∈ cs, ∃ pos : T → Fin (z.np c.p) → Fin dim → ℝ, (∀ q a, ContinuousAt (fun t => pos t q a) t0) ∧
    ∀ t, (x t).cache.interactions c.p c.g = some ⟨c.ker, compute c.ker (dom c.g) (pos t)⟩

variable {dom : Fin z.G → GridDomain ℝ dim} {cs : List (Coupling z)} {x : T → Ctx z ℝ dim SS (LawState ℝ) (ForceState ℝ dim)}

theorem CtxCont.setGrid (hx : CtxCont dom cs x t0) (g : Fin z.G) {a : T → GridArrays ℝ dim} (ha : GridCont a t0) :
    CtxCont dom cs (fun t => (x t).setGrid g (a t)) t0 := by
  refine ⟨hx.bodies, hx.laws, hx.forces, fun k => ?_, hx.inter⟩
  by_cases hk : k = g
  · subst hk
    simpa only [Ctx.setGrid, Function.update_self] using ha
  · simpa only [Ctx.setGrid, Function.update_of_ne hk] using hx.grids k

theorem CtxCont.setBody (hx : CtxCont dom cs x t0) (p : Fin z.P) {b : T → Body ℝ dim (z.np p)} (hb : BodyCont b t0) :
    CtxCont dom cs (fun t => (x t).setBody p (b t)) t0 := by
  refine ⟨fun k => ?_, hx.laws, hx.forces, hx.grids, hx.inter⟩
  by_cases hk : k = p
  · subst hk
    simpa only [Ctx.setBody, World.setBody, Function.update_self] using hb
  · simpa only [Ctx.setBody, World.setBody, Function.update_of_ne hk] using hx.bodies k

theorem cont_p2gCoupling (hdim : dim = 2 ∨ dim = 3) (hg : ∀ g d, 0 < (dom g).gridSize d) {c : Coupling z} (hc : c ∈ cs)
    (hk : c.ker ≠ .linear) (hx : CtxCont dom cs x t0) : FamE (fun y => CtxCont dom cs y t0) (fun t => p2gCoupling (x t) c) := by
  unfold p2gCoupling
  by_cases hs : c.skip = true
  · simp only [if_pos hs]; exact .ok hx
  simp only [if_neg hs]
  obtain ⟨pos, hp, hi⟩ := hx.inter c hc
  simp only [hi]
  rcases hx.bodies c.p with ⟨s, hb, hm⟩ | ⟨r, hb, -⟩
  · simp only [hb, hm.shape]
    split_ifs
    · exact .error _
    · exact .ok (hx.setGrid c.g (cont_p2g hdim hk _ (hg c.g) hp hm (hx.grids c.g)))
  · simp only [hb]; exact .error _

theorem cont_p2g_fold (hdim : dim = 2 ∨ dim = 3) (hg : ∀ g d, 0 < (dom g).gridSize d)
    (hk : ∀ c ∈ cs, c.ker ≠ .linear) (hx : CtxCont dom cs x t0) :
    FamE (fun y => CtxCont dom cs y t0) (fun t => foldE p2gCoupling (x t) cs) := by
  have := FamE.foldE (R := fun (y : T → Ctx z ℝ dim SS (LawState ℝ) (ForceState ℝ dim)) l => CtxCont dom cs y t0 ∧ l ⊆ cs)
    (f := fun _ => p2gCoupling) (l := cs) (fun c l y hy => by
      have hc := hy.2 (List.mem_cons_self ..)
      rcases cont_p2gCoupling hdim hg hc (hk c hc) hy.1 with h | ⟨w, h1, h2⟩
      · exact .inl h
      · exact .inr ⟨w, h1, h2, fun b hb => hy.2 (List.mem_cons_of_mem _ hb)⟩) (x := x) ⟨hx, fun _ h => h⟩
  rcases this with h | ⟨w, h1, h2⟩
  · exact .inl h
  · exact .inr ⟨w, h1, h2.1⟩

theorem cont_integrate_fold {dt : T → ℝ} (hdt : ContinuousAt dt t0) (l : List (Coupling z)) (hx : CtxCont dom cs x t0) :
    FamE (fun y => CtxCont dom cs y t0) (fun t => foldE (integrateCoupling (dt t)) (x t) l) := by
  refine FamE.foldE (R := fun y _ => CtxCont dom cs y t0) (f := fun t => integrateCoupling (dt t)) (fun c l y hy => ?_) hx
  unfold integrateCoupling
  by_cases hs : c.skip = true
  · simp only [if_pos hs]; exact .ok hy
  simp only [if_neg hs]
  have hg := hy.grids c.g
  exact .ok (hy.setGrid c.g ⟨hg.mass, hg.moment, fun j a => (hg.moment j a).add ((hg.force j a).mul hdt), hg.force⟩)

theorem cont_gravity {time dt : T → ℝ} (gravs : List (List (Fin z.G) × ℕ)) (hx : CtxCont dom cs x t0) :
    FamE (fun y => CtxCont dom cs y t0) (fun t => runHook ForceHooks.gridForces (gravityList gravs) (x t) (dt t) (time t)) := by
  unfold runHook gravityList
  have := FamE.foldE (R := fun (y : T → Ctx z ℝ dim SS (LawState ℝ) (ForceState ℝ dim)) (l : List (ForceHooks z ℝ dim SS (LawState ℝ) (ForceState ℝ dim))) =>
      CtxCont dom cs y t0 ∧ ∀ f ∈ l, ∃ q : List (Fin z.G) × ℕ, f = gravityForce true [] q.1 q.2)
    (f := fun t (y : Ctx z ℝ dim SS (LawState ℝ) (ForceState ℝ dim)) (h : ForceHooks z ℝ dim SS (LawState ℝ) (ForceState ℝ dim)) =>
      h.gridForces y (dt t) (time t))
    (l := gravs.map fun q => gravityForce true [] q.1 q.2) (fun f l y hy => by
      obtain ⟨q, rfl⟩ := hy.2 f (List.mem_cons_self ..)
      have hl := fun b hb => hy.2 b (List.mem_cons_of_mem _ hb)
      simp only [gravityForce, Bool.not_true, Bool.false_eq_true, if_false]
      rcases hy.1.forces q.2 with ⟨v, hv, hc⟩ | hv
      · have e : ∀ t, getGravity (y t).mech.forces q.2 = .ok (v t) := fun t => by unfold getGravity; rw [hv t]
        simp only [e, andThen]
        refine .ok ⟨⟨fun p => ?_, fun c => ?_, ?_, fun g => ?_, fun c hc => ?_⟩, hl⟩
        · simpa only [mapGrids_world] using hy.1.bodies p
        · simpa only [mapGrids_world] using hy.1.laws c
        · simpa only [mapGrids_world] using hy.1.forces
        · have hg := hy.1.grids g
          refine ⟨?_, ?_, ?_, ?_⟩ <;> simp only [mapGrids_gravity]
          · exact hg.mass
          · exact hg.moment
          · exact hg.momentNt
          · exact fun j a => (hg.force j a).add ((hg.mass j).mul (continuousAt_const.mul (hc a)))
        · simpa only [mapGrids_world] using hy.1.inter c hc
      · have e : ∀ t, getGravity (y t).mech.forces q.2 = getGravity (y t0).mech.forces q.2 := fun t => by unfold getGravity; rw [hv t]
        simp only [e]
        cases hv0 : getGravity (y t0).mech.forces q.2 with
        | error e' => exact .error e'
        | ok v =>
          simp only [andThen]
          refine .ok ⟨⟨fun p => ?_, fun c => ?_, ?_, fun g => ?_, fun c hc => ?_⟩, hl⟩
          · simpa only [mapGrids_world] using hy.1.bodies p
          · simpa only [mapGrids_world] using hy.1.laws c
          · simpa only [mapGrids_world] using hy.1.forces
          · have hg := hy.1.grids g
            refine ⟨?_, ?_, ?_, ?_⟩ <;> simp only [mapGrids_gravity]
            · exact hg.mass
            · exact hg.moment
            · exact hg.momentNt
            · exact fun j a => (hg.force j a).add ((hg.mass j).mul continuousAt_const)
          · simpa only [mapGrids_world] using hy.1.inter c hc)
    (x := x) ⟨hx, fun f hf => by obtain ⟨q, -, rfl⟩ := List.mem_map.1 hf; exact ⟨q, rfl⟩⟩
  rcases this with h | ⟨w, h1, h2⟩
  · exact .inl h
  · exact .inr ⟨w, h1, h2.1⟩

theorem gravity_idle (gravs : List (List (Fin z.G) × ℕ)) (y : Ctx z ℝ dim SS (LawState ℝ) (ForceState ℝ dim)) (dt time : ℝ) :
    runHook ForceHooks.preP2g (gravityList gravs) y dt time = .ok y ∧ runHook ForceHooks.gridMoments (gravityList gravs) y dt time = .ok y := by
  unfold runHook gravityList
  constructor
  all_goals
    induction gravs with
    | nil => rfl
    | cons q gravs ih => exact ih

theorem cont_g2p_fold (hdim : dim = 2 ∨ dim = 3) (hg : ∀ g d, 0 < (dom g).gridSize d) (alpha : ℝ) {dt : T → ℝ} (hdt : ContinuousAt dt t0)
    (hk : ∀ c ∈ cs, c.ker ≠ .linear) (hm : ∀ g j, ((x t0).cache.grids g).mass j ≠ uslCutoff) (hx : CtxCont dom cs x t0) :
    FamE (fun y => CtxCont dom cs y t0) (fun t => foldE (g2pCoupling alpha (dt t)) (x t) cs) := by
  have := FamE.foldE (R := fun (y : T → Ctx z ℝ dim SS (LawState ℝ) (ForceState ℝ dim)) l => CtxCont dom cs y t0 ∧ l ⊆ cs ∧
      ∀ g j, ((y t0).cache.grids g).mass j ≠ uslCutoff)
    (f := fun t => g2pCoupling alpha (dt t)) (l := cs) (fun c l y hy => by
      have hc := hy.2.1 (List.mem_cons_self ..)
      have hl : l ⊆ cs := fun b hb => hy.2.1 (List.mem_cons_of_mem _ hb)
      unfold g2pCoupling
      by_cases hs : c.skip = true
      · simp only [if_pos hs]; exact .ok ⟨hy.1, hl, hy.2.2⟩
      simp only [if_neg hs]
      obtain ⟨pos, hp, hi⟩ := hy.1.inter c hc
      simp only [hi]
      rcases hy.1.bodies c.p with ⟨s, hb, hm⟩ | ⟨r, hb, -⟩
      · simp only [hb]
        split_ifs
        · exact .error _
        · simp only [compute_ghost]
          refine .ok ⟨hy.1.setBody c.p (b := fun t => .deformable _) (.inl ⟨_, fun _ => rfl, ?_⟩), hl, hy.2.2⟩
          exact cont_g2p hdim (hk c hc) _ (hg c.g) alpha hdt hp hm (hy.1.grids c.g) (hy.2.2 c.g)
      · simp only [hb]; exact .error _) (x := x) ⟨hx, fun _ h => h, hm⟩
  rcases this with h | ⟨w, h1, h2⟩
  · exact .inl h
  · exact .inr ⟨w, h1, h2.1⟩

theorem cont_law_fold (laws : Fin z.C → Law ℝ dim (LawState ℝ)) {dt : T → ℝ} (hdt : ContinuousAt dt t0) (hn : (cs.map (·.p)).Nodup)
    (hl : ∀ c ∈ cs, c.skip = false → ∀ s, (x t0).world.bodies c.p = .deformable s → LawClear (laws c.c) s ((x t0).mech.laws c.c))
    (hx : CtxCont dom cs x t0) :
    FamE (fun y => CtxCont dom cs y t0) (fun t => foldE (lawCoupling realFns laws (dt t)) (x t) cs) := by
  have := FamE.foldE (R := fun (y : T → Ctx z ℝ dim SS (LawState ℝ) (ForceState ℝ dim)) l => CtxCont dom cs y t0 ∧ (l.map (·.p)).Nodup ∧
      ∀ c ∈ l, c.skip = false → ∀ s, (y t0).world.bodies c.p = .deformable s → LawClear (laws c.c) s ((y t0).mech.laws c.c))
    (f := fun t => lawCoupling realFns laws (dt t)) (l := cs) (fun c l y hy => by
      obtain ⟨hy, hnd, hcl⟩ := hy
      rw [List.map_cons, List.nodup_cons] at hnd
      have hrest := fun b (hb : b ∈ l) => hcl b (List.mem_cons_of_mem _ hb)
      unfold lawCoupling
      by_cases hs : c.skip = true
      · simp only [if_pos hs]; exact .ok ⟨hy, hnd.2, hrest⟩
      simp only [if_neg hs]
      have hs' : c.skip = false := by simpa using hs
      rcases hy.bodies c.p with ⟨s, hb, hm⟩ | ⟨r, hb, -⟩
      · simp only [hb]
        have hcl0 := hcl c (List.mem_cons_self ..) hs' _ (hb t0)
        refine FamE.andThen (hcl0.cont hm (hy.laws c.c) hdt) ?_
        intro w hwe hw
        have hset := hy.setBody c.p (b := fun t => .deformable (removeShear realFns (laws c.c).requiresFReset (w t).1))
          (.inl ⟨_, fun _ => rfl, cont_removeShear _ hw.1⟩)
        have hlaws : ∀ k, LawCont (fun t => Function.update (y t).mech.laws c.c (w t).2 k) t0 := fun k => by
          by_cases hk : k = c.c
          · subst hk; simpa only [Function.update_self] using hw.2
          · simpa only [Function.update_of_ne hk] using hy.laws k
        refine .ok ⟨⟨hset.bodies, hlaws, hy.forces, hset.grids, hset.inter⟩, hnd.2, fun b hb hbs s' hs' => ?_⟩
        refine (hrest b hb hbs s' ?_).of_kind ?_
        swap
        · change SameKind _ (Function.update (y t0).mech.laws c.c (w t0).2 b.c)
          by_cases hk : b.c = c.c
          · rw [hk, Function.update_self]; exact (hcl0.keeps (hwe t0)).2.2.symm
          · rw [Function.update_of_ne hk]; exact .inl rfl
        have hne : b.p ≠ c.p := fun h => hnd.1 (List.mem_map.2 ⟨b, hb, h⟩)
        have e : ((y t0).setBody c.p (.deformable (removeShear realFns (laws c.c).requiresFReset (w t0).1))).world.bodies b.p =
            (y t0).world.bodies b.p := Function.update_of_ne hne _ _
        exact e.symm.trans hs'
      · simp only [hb]; exact .error _) (x := x) ⟨hx, hn, hl⟩
  rcases this with h | ⟨w, h1, h2⟩
  · exact .inl h
  · exact .inr ⟨w, h1, h2.1⟩

/-- Before the laws are evaluated the points have the masses and volumes and the laws the kinds of state they have after. -/
theorem law_fold_keeps (laws : Fin z.C → Law ℝ dim (LawState ℝ)) (dt : ℝ) {cs : List (Coupling z)}
    {y y' : Ctx z ℝ dim SS (LawState ℝ) (ForceState ℝ dim)} (h : foldE (lawCoupling realFns laws dt) y cs = .ok y')
    (hl : ∀ c ∈ cs, c.skip = false → ∃ n, ∃ (s : MPState ℝ dim n) (ls : LawState ℝ), LawClear (laws c.c) s ls) :
    (∀ k, SameKind (y'.mech.laws k) (y.mech.laws k)) ∧
    ∀ p, Body.Rel (fun _ s s' => s'.mass = s.mass ∧ s'.volume = s.volume) (y.world.bodies p) (y'.world.bodies p) := by
  refine foldE_rel (R := fun (x x' : Ctx z ℝ dim SS (LawState ℝ) (ForceState ℝ dim)) =>
      (∀ k, SameKind (x'.mech.laws k) (x.mech.laws k)) ∧
      ∀ p, Body.Rel (fun _ s s' => s'.mass = s.mass ∧ s'.volume = s.volume) (x.world.bodies p) (x'.world.bodies p))
    (fun _ => ⟨fun _ => .inl rfl, fun _ => Body.Rel.refl (fun _ _ => ⟨rfl, rfl⟩) _⟩)
    (fun a b c h1 h2 => ⟨fun k => (h2.1 k).trans (h1.1 k), fun p => (h1.2 p).trans (R := fun _ s s' => s'.mass = s.mass ∧ s'.volume = s.volume)
      (fun n a b c h1 h2 => ⟨h2.1.trans h1.1, h2.2.trans h1.2⟩) (h2.2 p)⟩) cs y y' ?_ h
  intro c hc y y' hy
  cases hs : c.skip with
  | true =>
    rw [lawCoupling_skip hs hy]
    exact ⟨fun _ => .inl rfl, fun _ => Body.Rel.refl (fun _ _ => ⟨rfl, rfl⟩) _⟩
  | false =>
    obtain ⟨s, r, hb, hr, rfl⟩ := lawCoupling_ok hs hy
    obtain ⟨n, s', ls', hcl⟩ := hl c hc hs
    obtain ⟨k1, k2, k3⟩ := hcl.keeps hr
    refine ⟨fun k => ?_, rel_setBody (R := fun _ s s' => s'.mass = s.mass ∧ s'.volume = s.volume) (fun _ _ => ⟨rfl, rfl⟩) y c.p _ ?_⟩
    · change SameKind (Function.update y.mech.laws c.c r.2 k) _
      by_cases hk : k = c.c
      · subst hk; rw [Function.update_self]; exact k3
      · rw [Function.update_of_ne hk]; exact .inl rfl
    · rw [hb]
      change (removeShear realFns _ r.1).mass = s.mass ∧ (removeShear realFns _ r.1).volume = s.volume
      rw [← k1, ← k2]
      unfold removeShear
      split_ifs <;> exact ⟨rfl, rfl⟩

end
end Hydrax
