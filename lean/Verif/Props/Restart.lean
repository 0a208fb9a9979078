import Verif.Model.Restart
import Verif.Props.SimIO
import Verif.Props.Invariants
import Verif.Props.Momentum

/-!
# A saved simulation can be continued (C134)
-/

namespace Hydrax

section
variable {σ τ St L Sh : Type*} [DecidableEq Sh] (shape : L → Sh)

/-- The directories agree on all files except those of recorded steps after `a` and up to `b`. -/
def Spec.AgreeOff (rec : ℤ → Bool) (a b : ℤ) (d e : Dir L) : Prop :=
  ∀ name, (∀ i, a < i → i ≤ b → rec i = true → name ≠ stateName i) → d name = e name

variable {call : σ → Except PyErr σ} {C : Pytree σ St L} {stepOf : σ → ℤ} {rec : ℤ → Bool}

theorem recordedRun_add (n m : ℕ) (x : σ × Dir L) :
    recordedRun call C stepOf rec (n + m) x = andThen (recordedRun call C stepOf rec n x) (recordedRun call C stepOf rec m) := by
  induction m with
  | zero => cases h : recordedRun call C stepOf rec n x <;> simp [andThen, recordedRun]
  | succ m ih =>
    rw [← add_assoc, recordedRun, ih]
    cases recordedRun call C stepOf rec n x <;> rfl

/-- A step of the loop. -/
theorem recordedRun_succ_ok {m : ℕ} {x y : σ × Dir L} (h : recordedRun call C stepOf rec (m + 1) x = .ok y) :
    ∃ z, recordedRun call C stepOf rec m x = .ok z ∧ call z.1 = .ok y.1 ∧
      y.2 = if rec (stepOf y.1) then runPrims z.2 (saveStepPrims ⟨stepOf y.1, C.flatten y.1⟩) else z.2 := by
  rw [recordedRun] at h
  cases hz : recordedRun call C stepOf rec m x with
  | error e => rw [hz] at h; simp [andThen] at h
  | ok z =>
    rw [hz] at h
    simp only [andThen] at h
    cases hc : call z.1 with
    | error e => rw [hc] at h; simp at h
    | ok s =>
      rw [hc] at h
      simp only [Except.ok.injEq] at h
      subst h
      exact ⟨z, rfl, hc, rfl⟩

variable (hstep : ∀ s s', call s = .ok s' → stepOf s' = stepOf s + 1)
include hstep

/-- The loop only writes the files of the recorded steps it makes. -/
theorem recordedRun_writes {m : ℕ} {x y : σ × Dir L} (h : recordedRun call C stepOf rec m x = .ok y) :
    stepOf y.1 = stepOf x.1 + m ∧ Spec.AgreeOff rec (stepOf x.1) (stepOf x.1 + m) y.2 x.2 := by
  induction m generalizing y with
  | zero =>
    simp only [recordedRun, Except.ok.injEq] at h
    subst h
    exact ⟨by simp, fun _ _ => rfl⟩
  | succ m ih =>
    obtain ⟨z, hz, hc, hy⟩ := recordedRun_succ_ok h
    obtain ⟨i1, i2⟩ := ih hz
    have hs := hstep _ _ hc
    refine ⟨by rw [hs, i1]; push_cast; ring, fun name hn => ?_⟩
    rw [hy]
    have e : z.2 name = x.2 name := i2 name fun i ha hb hr => hn i ha (by push_cast; linarith) hr
    split_ifs with hr
    · rw [(saveStep_run ⟨stepOf y.1, C.flatten y.1⟩ z.2).2 name
        (hn (stepOf y.1) (by rw [hs, i1]; linarith) (by rw [hs, i1]; push_cast; linarith) hr), e]
    · exact e

/-- What was in the files that the loop is going to write makes no difference. -/
theorem recordedRun_agree {m : ℕ} {T : ℤ} {s : σ} {d e : Dir L} (hT : stepOf s + m ≤ T) (hde : Spec.AgreeOff rec (stepOf s) T d e)
    {y : σ × Dir L} (h : recordedRun call C stepOf rec m (s, d) = .ok y) :
    ∃ e', recordedRun call C stepOf rec m (s, e) = .ok (y.1, e') ∧ Spec.AgreeOff rec (stepOf s + m) T y.2 e' := by
  induction m generalizing y with
  | zero =>
    simp only [recordedRun, Except.ok.injEq] at h
    subst h
    exact ⟨e, rfl, by simpa using hde⟩
  | succ m ih =>
    obtain ⟨z, hz, hc, hy⟩ := recordedRun_succ_ok h
    obtain ⟨e', he, ha⟩ := ih (by push_cast at hT; linarith) hz
    have hk := (recordedRun_writes hstep hz).1
    have hs := hstep _ _ hc
    refine ⟨if rec (stepOf y.1) then runPrims e' (saveStepPrims ⟨stepOf y.1, C.flatten y.1⟩) else e',
      by rw [recordedRun, he]; simp only [andThen, hc], fun name hn => ?_⟩
    rw [hy]
    by_cases hr : rec (stepOf y.1) = true
    · simp only [hr, if_true]
      by_cases hname : name = stateName (stepOf y.1)
      · rw [hname]
        exact ((saveStep_run ⟨stepOf y.1, C.flatten y.1⟩ z.2).1).trans ((saveStep_run ⟨stepOf y.1, C.flatten y.1⟩ e').1).symm
      · rw [(saveStep_run ⟨stepOf y.1, C.flatten y.1⟩ z.2).2 name hname, (saveStep_run ⟨stepOf y.1, C.flatten y.1⟩ e').2 name hname]
        refine ha name fun i h1 h2 h3 => ?_
        by_cases hi : i = stepOf y.1
        · rw [hi]; exact hname
        · refine hn i ?_ h2 h3
          rw [hs, hk] at hi
          push_cast at hi ⊢
          simp only at hk
          omega
    · simp only [hr]
      refine ha name fun i h1 h2 h3 => ?_
      by_cases hi : i = stepOf y.1
      · rw [hi] at h3; exact absurd h3 hr
      · refine hn i ?_ h2 h3
        rw [hs, hk] at hi
        push_cast at hi ⊢
        omega

end

section
variable {σ τ St St' L Sh : Type*} [DecidableEq Sh] (shape : L → Sh)

/-- What a process that dies leaves behind: it has made and recorded `n` steps, and has written the first `q` pieces of what
the next step records. -/
def Spec.LeftBehind (call : σ → Except PyErr σ) (C : Pytree σ St L) (stepOf : σ → ℤ) (rec : ℤ → Bool) (x : σ × Dir L) (n q : ℕ)
    (d : Dir L) : Prop :=
  ∃ y, recordedRun call C stepOf rec n x = .ok y ∧ (d = y.2 ∨
    ∃ s, call y.1 = .ok s ∧ rec (stepOf s) = true ∧ d = runPrims y.2 ((saveStepPrims ⟨stepOf s, C.flatten s⟩).take q))

/-- **C134**: a process records a run of the solver `sv` and dies at any moment after the recorded step `n`, possibly in the
middle of a save. A second process opens the recorder with `overwrite=False`, loads step `n` and goes on. Then it ends with
the state, and leaves the files, of the run that was never interrupted. The skeletons must have the static parts of the
solver and the state (partial: see `load_foreign_solver`). -/
theorem resume_run_partial (solve : τ → σ → Except PyErr σ) (C : Pytree σ St L) (CS : Pytree τ St L) (stepOf : σ → ℤ)
    (rec : ℤ → Bool) (sv : τ) (hstep : ∀ s s', solve sv s = .ok s' → stepOf s' = stepOf s + 1) {s0 : σ} {d0 : Dir L} {n m j q : ℕ}
    (hsv : d0 solverName = some ((CS.flatten sv).leaves.map Blob.leaf)) (hn : 0 < n) {s1 s2 : σ} {d1 d2 : Dir L}
    (h1 : recordedRun (solve sv) C stepOf rec n (s0, d0) = .ok (s1, d1)) (hrec : rec (stepOf s1) = true)
    (h2 : recordedRun (solve sv) C stepOf rec (n + m) (s0, d0) = .ok (s2, d2)) (hj : j < m) {disk : Disk L} {path : String} {d : Dir L}
    (hdisk : disk path = some d) (hleft : Spec.LeftBehind (solve sv) C stepOf rec (s0, d0) (n + j) q d) (solverSkel stateSkel : Tree St L)
    (hf1 : Spec.Fits shape solverSkel (CS.flatten sv)) (hf2 : Spec.Fits shape stateSkel (C.flatten s1)) :
    ∃ d' tv ts, openRecorder disk path false path = some d' ∧
      loadSimulation shape d' solverSkel stateSkel (stepOf s1) = .ok (tv, ts) ∧
      recordedRun (solve (CS.unflatten tv)) C stepOf rec m (C.unflatten ts, d') = .ok (s2, d2) := by
  obtain ⟨hinj, hns, -, -⟩ := stateName_injective
  -- the directory left behind
  have hd : Spec.AgreeOff rec (stepOf s1) (stepOf s1 + (j + 1 : ℕ)) d d1 := by
    obtain ⟨y, hy, hd⟩ := hleft
    rw [recordedRun_add, h1] at hy
    obtain ⟨k1, k2⟩ := recordedRun_writes hstep hy
    simp only at k1 k2
    rcases hd with rfl | ⟨s, hs, hr, rfl⟩
    · exact fun name hname => k2 name fun i ha hb hc => hname i ha (by push_cast; omega) hc
    · have hss := hstep _ _ hs
      intro name hname
      rw [runPrims_other]
      · exact k2 name fun i ha hb hc => hname i ha (by push_cast; omega) hc
      · intro p hp
        have := List.mem_of_mem_take hp
        rw [saveStepPrims] at this
        rw [serialise_target _ _ p this]
        refine (hname (stepOf s) ?_ ?_ hr).symm
        · rw [hss, k1]; omega
        · rw [hss, k1]; push_cast; omega
  refine ⟨d, CS.flatten sv, C.flatten s1, (open_recorder disk path).2.1 d hdisk, ?_, ?_⟩
  · have e1 : d solverName = some ((CS.flatten sv).leaves.map Blob.leaf) := by
      rw [hd _ fun i _ _ _ => (hns i).symm]
      exact ((recordedRun_writes hstep h1).2 _ fun i _ _ _ => (hns i).symm).trans hsv
    have e2 : d (stateName (stepOf s1)) = some ((C.flatten s1).leaves.map Blob.leaf) := by
      rw [hd _ fun i ha _ _ h => ha.ne (hinj h)]
      obtain ⟨n, rfl⟩ : ∃ k, n = k + 1 := ⟨n - 1, by omega⟩
      obtain ⟨z, -, -, hz⟩ := recordedRun_succ_ok h1
      simp only [hrec, if_true] at hz
      rw [hz]
      exact (saveStep_run ⟨stepOf s1, C.flatten s1⟩ z.2).1
    have g1 : deserialise shape d solverName solverSkel = .ok (CS.flatten sv) := by
      simp only [deserialise, e1, readLeaves_self shape hf1.2]
      change Except.ok _ = _
      rw [hf1.1]
    have g2 : deserialise shape d (stateName (stepOf s1)) stateSkel = .ok (C.flatten s1) := by
      simp only [deserialise, e2, readLeaves_self shape hf2.2]
      change Except.ok _ = _
      rw [hf2.1]
    simp only [loadSimulation, g1, g2]
    rfl
  · rw [C.left_inv, CS.left_inv]
    rw [recordedRun_add, h1] at h2
    have hd' : Spec.AgreeOff rec (stepOf s1) (stepOf s1 + m) d1 d := fun name hname =>
      (hd name fun i ha hb hc => hname i ha (by push_cast at hb; omega) hc).symm
    obtain ⟨e', h3, h4⟩ := recordedRun_agree hstep le_rfl hd' h2
    have : e' = d2 := by
      funext name
      exact (h4 name fun i ha hb _ => absurd (ha.trans_le hb) (lt_irrefl _)).symm
    rw [h3, this]

end

section
variable {St L Sh : Type*} [DecidableEq Sh] (shape : L → Sh)

/-- The static fields are not saved: a skeleton with other ones is accepted, and its own are kept. -/
theorem load_foreign_solver (d : Dir L) (solver skel : Tree St L) (hd : d solverName = some (solver.leaves.map Blob.leaf))
    (h : skel.leaves.map shape = solver.leaves.map shape) :
    deserialise shape d solverName skel = .ok { solver with static := skel.static } := by
  simp only [deserialise, hd, readLeaves_self shape h]
  rfl

/-- What `save_solver` writes does not depend on the static fields. -/
theorem saved_solver_static (solver : Tree St L) (st : St) (meta_ : String) :
    saveSolverPrims { solver with static := st } meta_ = saveSolverPrims solver meta_ := rfl

/-- Opening the recorder first, as in the usage notes (sim_io.py:46-53), removes what is to be loaded. -/
theorem documented_load_fails (disk : Disk L) (path : String) (solverSkel stateSkel : Tree St L) (k : ℤ) :
    ∃ d, openRecorder disk path true path = some d ∧ openRecorder disk path = openRecorder disk path true ∧ loadSimulation shape d solverSkel stateSkel k = .error .fileNotFoundError := by
  refine ⟨fun _ => none, ?_, rfl, rfl⟩
  unfold openRecorder
  rw [Function.update_self]
  cases disk path <;> rfl

end

/-! ### The solvers of the package -/

section
variable {z : Sz} {K : Type*} {dim : ℕ} {SS LS : Type*} [Field K] [LinearOrder K] [IsStrictOrderedRing K] [FloorRing K]
  {St L Sh : Type*} [DecidableEq Sh] (shape : L → Sh)

omit [IsStrictOrderedRing K] in
/-- **C134** for simulations with the USL or the ASFLIP solver: states are numbered by the step counter, which the solver
advances by one. -/
theorem simulation_resumes_partial {fn : MathFns K} {τ : Type*} (build : τ → Solver z K dim SS LS (ForceState K dim))
    (solve : τ → SimState z K dim SS LS (ForceState K dim) → Except PyErr (SimState z K dim SS LS (ForceState K dim))) (sv : τ)
    (hcall : IsSolverCall fn (build sv) (solve sv)) (C : Pytree (SimState z K dim SS LS (ForceState K dim)) St L) (CS : Pytree τ St L)
    (rec : ℤ → Bool) {s0 s1 s2 : SimState z K dim SS LS (ForceState K dim)} {d0 d1 d2 : Dir L} {n m j q : ℕ}
    (hsv : d0 solverName = some ((CS.flatten sv).leaves.map Blob.leaf)) (hn : 0 < n)
    (h1 : recordedRun (solve sv) C (fun st => st.step) rec n (s0, d0) = .ok (s1, d1)) (hrec : rec s1.step = true)
    (h2 : recordedRun (solve sv) C (fun st => st.step) rec (n + m) (s0, d0) = .ok (s2, d2)) (hj : j < m) {disk : Disk L} {path : String}
    {d : Dir L} (hdisk : disk path = some d) (hleft : Spec.LeftBehind (solve sv) C (fun st => st.step) rec (s0, d0) (n + j) q d)
    (solverSkel stateSkel : Tree St L) (hf1 : Spec.Fits shape solverSkel (CS.flatten sv))
    (hf2 : Spec.Fits shape stateSkel (C.flatten s1)) :
    ∃ d' tv ts, openRecorder disk path false path = some d' ∧ loadSimulation shape d' solverSkel stateSkel s1.step = .ok (tv, ts) ∧
      recordedRun (solve (CS.unflatten tv)) C (fun st => st.step) rec m (C.unflatten ts, d') = .ok (s2, d2) := by
  refine resume_run_partial shape solve C CS (fun st => st.step) rec sv (fun s s' h => ?_) hsv hn h1 hrec h2 hj hdisk hleft
    solverSkel stateSkel hf1 hf2
  have := (clock_exact (build sv) hcall 1 s s' (by simp only [runSteps, andThen]; exact h)).1
  rw [this]; push_cast; ring

theorem recordedRun_ok {σ : Type*} {call : σ → Except PyErr σ} (C : Pytree σ St L) (stepOf : σ → ℤ) (rec : ℤ → Bool) {n : ℕ}
    {s s' : σ} (h : runSteps call n s = .ok s') (d : Dir L) : ∃ d', recordedRun call C stepOf rec n (s, d) = .ok (s', d') := by
  induction n generalizing s' with
  | zero =>
    simp only [runSteps, Except.ok.injEq] at h
    subst h
    exact ⟨d, rfl⟩
  | succ n ih =>
    obtain ⟨s1, h1, h2⟩ := runSteps_succ_ok.mp h
    obtain ⟨d1, e1⟩ := ih h1
    exact ⟨_, by rw [recordedRun, e1]; simp only [andThen, h2]; rfl⟩

end

/-! ### Example -/

/-- One elastic body with `alpha = 0.99`. -/
def exSettings : ElasticSolver ℚ := ⟨99 / 100, 1 / 2, 1000, 1 / 4⟩

set_option maxRecDepth 100000 in
theorem foreign_alpha_eval : probe (uslCall ratFns exSettings.build exState) (0 : Fin 1) (fun s => s.velocity (0 : Fin 2) 0) ≠
    probe (uslCall ratFns { exSettings with alpha := 0 }.build exState) (0 : Fin 1) (fun s => s.velocity (0 : Fin 2) 0) := by
  decide +kernel

set_option maxRecDepth 100000 in
theorem foreign_grid_eval : probe (uslCall ratFns exSettings.build exState) (0 : Fin 1) (fun s => s.velocity (0 : Fin 2) 0) ≠
    probe (uslCall ratFns { exSettings with cellSize := 1 / 4 }.build exState) (0 : Fin 1) (fun s => s.velocity (0 : Fin 2) 0) := by
  decide +kernel

/-- **C134** is false for skeletons with another `alpha` or another grid: they load without complaint and the simulation goes on
with other velocities. -/
theorem foreign_solver_differs (skel : Tree (ℚ × ℚ) ℚ) (hs : skel = ⟨(0, 1 / 2), [0, 0]⟩ ∨ skel = ⟨(99 / 100, 1 / 4), [0, 0]⟩)
    (d : Dir ℚ) : ∃ t, deserialise (fun _ => ()) (runPrims d (saveSolverPrims ((elasticPytree ℚ).flatten exSettings) "")) solverName skel =
      .ok t ∧
    probe (uslCall ratFns ((elasticPytree ℚ).unflatten t).build exState) (0 : Fin 1) (fun s => s.velocity (0 : Fin 2) 0) ≠
      probe (uslCall ratFns exSettings.build exState) (0 : Fin 1) (fun s => s.velocity (0 : Fin 2) 0) := by
  rcases hs with rfl | rfl
  · exact ⟨_, load_foreign_solver _ _ ((elasticPytree ℚ).flatten exSettings) _ (saveSolver_run _ _ _).1 rfl, foreign_alpha_eval.symm⟩
  · exact ⟨_, load_foreign_solver _ _ ((elasticPytree ℚ).flatten exSettings) _ (saveSolver_run _ _ _).1 rfl, foreign_grid_eval.symm⟩

abbrev ExLeaf := SimState exSz ℚ 2 Unit (LawState ℚ) (ForceState ℚ 2) ⊕ ℚ

def exStateTree : Pytree (SimState exSz ℚ 2 Unit (LawState ℚ) (ForceState ℚ 2)) (ℚ × ℚ) ExLeaf where
  flatten s := ⟨(0, 0), [.inl s]⟩
  unflatten t := match t.leaves with
    | .inl s :: _ => s
    | _ => exState
  left_inv _ := rfl

def exSolverTree : Pytree (ElasticSolver ℚ) (ℚ × ℚ) ExLeaf where
  flatten s := ⟨(s.alpha, s.cellSize), [.inr s.E, .inr s.nu]⟩
  unflatten t := match t.leaves with
    | [.inr E, .inr nu] => ⟨t.static.1, t.static.2, E, nu⟩
    | _ => exSettings
  left_inv _ := rfl

/-- The process dies when it has created the file of step 2 but not written it; the second process loads step 1. -/
example : ∃ s1 s2 : SimState exSz ℚ 2 Unit (LawState ℚ) (ForceState ℚ 2), ∃ d1 d2 d : Dir ExLeaf, recordedRun (uslCall ratFns exSettings.build) exStateTree (fun st => st.step) (fun _ => true) 2
      (exState, runPrims (fun _ => none) (saveSolverPrims (exSolverTree.flatten exSettings) "")) = .ok (s2, d2) ∧ d ≠ d1 ∧ d ≠ d2 ∧
    Spec.LeftBehind (uslCall ratFns exSettings.build) exStateTree (fun st => st.step) (fun _ => true)
      (exState, runPrims (fun _ => none) (saveSolverPrims (exSolverTree.flatten exSettings) "")) 1 1 d ∧
    ∃ d' tv ts, openRecorder (fun _ => some d) "out" false "out" = some d' ∧
      loadSimulation Sum.isLeft d' ⟨(99 / 100, 1 / 2), [.inr 0, .inr 0]⟩ ⟨(0, 0), [.inl exState]⟩ s1.step = .ok (tv, ts) ∧
      recordedRun (uslCall ratFns (exSolverTree.unflatten tv).build) exStateTree (fun st => st.step) (fun _ => true) 1
        (exStateTree.unflatten ts, d') = .ok (s2, d2) := by
  obtain ⟨s2, h2⟩ := isOk_ok exRun2_ok
  obtain ⟨s1, h1, h12⟩ := runSteps_succ_ok.mp h2
  set d0 : Dir ExLeaf := runPrims (fun _ => none) (saveSolverPrims (exSolverTree.flatten exSettings) "") with hd0
  obtain ⟨d1, e1⟩ := recordedRun_ok exStateTree (fun st => (st.step : ℤ)) (fun _ => true) h1 d0
  obtain ⟨d2, e2⟩ := recordedRun_ok exStateTree (fun st => (st.step : ℤ)) (fun _ => true) h2 d0
  have hl : Spec.LeftBehind (uslCall ratFns exSettings.build) exStateTree (fun st => (st.step : ℤ)) (fun _ => true) (exState, d0) (1 + 0) 1
      (runPrims d1 ((saveStepPrims ⟨s2.step, exStateTree.flatten s2⟩).take 1)) :=
    ⟨_, e1, .inr ⟨s2, h12, rfl, rfl⟩⟩
  have hz : runPrims d1 ((saveStepPrims ⟨s2.step, exStateTree.flatten s2⟩).take 1) (stateName s2.step) = some [] := by
    simp [saveStepPrims, serialise, runPrims, Prim.run]
  have hd2 : d2 (stateName s2.step) = some [.leaf (.inl s2)] := by
    obtain ⟨z, -, -, hz⟩ := recordedRun_succ_ok e2
    simp only [if_true] at hz
    rw [hz]
    exact (saveStep_run ⟨s2.step, exStateTree.flatten s2⟩ z.2).1
  refine ⟨s1, s2, d0, d2, _, e2, ?_, ?_, hl, ?_⟩
  · intro h
    rw [h] at hz
    rw [hd0, (saveSolver_run _ _ _).2 _ (stateName_injective.2.1 _) (stateName_injective.2.2.1 _)] at hz
    simp at hz
  · intro h
    rw [h, hd2] at hz
    simp at hz
  · exact simulation_resumes_partial Sum.isLeft ElasticSolver.build (fun s => uslCall ratFns s.build) exSettings (.inl rfl) exStateTree
      exSolverTree (fun _ => true) (n := 1) (m := 1) (saveSolver_run _ _ _).1 one_pos e1 rfl e2 one_pos rfl hl _ _ ⟨rfl, rfl⟩ ⟨rfl, rfl⟩

end Hydrax
