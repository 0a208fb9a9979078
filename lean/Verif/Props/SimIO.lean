import Verif.Model.SimIO
import Mathlib.Tactic.Linarith

/-!
# Saved states can be loaded (C56, C57, C58, C70)
-/

namespace Hydrax

/-! ### File names -/

/-- Value of a string of digits. -/
def Spec.digitsValue (l : List Char) : ℕ := l.foldl (fun acc c => acc * 10 + (c.toNat - 48)) 0

theorem digit_val {n : ℕ} (h : n < 10) : (Char.ofNat (48 + n)).toNat - 48 = n ∧ Char.ofNat (48 + n) ≠ '-' := by
  have : ∀ n : Fin 10, (Char.ofNat (48 + n.val)).toNat - 48 = n.val ∧ Char.ofNat (48 + n.val) ≠ '-' := by decide
  exact this ⟨n, h⟩

theorem decDigits_spec (n : ℕ) : Spec.digitsValue (decDigits n) = n ∧ ∀ c ∈ decDigits n, c ≠ '-' := by
  induction n using Nat.strong_induction_on with
  | _ n ih =>
    rw [decDigits]
    split_ifs with h
    · have := digit_val h
      simp [Spec.digitsValue, this.1, this.2]
    · have h1 := ih (n / 10) (by omega)
      have h2 := digit_val (Nat.mod_lt n (by norm_num : 0 < 10))
      constructor
      · rw [Spec.digitsValue, List.foldl_append]
        have h3 := h1.1
        unfold Spec.digitsValue at h3
        rw [h3]
        simp only [List.foldl_cons, List.foldl_nil, h2.1]
        omega
      · intro c hc
        rcases List.mem_append.mp hc with hc | hc
        · exact h1.2 c hc
        · rw [List.mem_singleton.mp hc]; exact h2.2

theorem digitsValue_zeros (m : ℕ) (l : List Char) : Spec.digitsValue (List.replicate m '0' ++ l) = Spec.digitsValue l := by
  unfold Spec.digitsValue
  rw [List.foldl_append]
  congr 1
  induction m with
  | zero => rfl
  | succ m ih => simpa [List.replicate_succ] using ih

theorem pad5_injective : Function.Injective pad5 := by
  intro a b h
  have hpos : ∀ k : ℤ, 0 ≤ k → Spec.digitsValue (pad5 k) = k.toNat ∧ ∀ c ∈ pad5 k, c ≠ '-' := by
    intro k hk
    simp only [pad5, if_pos hk]
    refine ⟨by rw [digitsValue_zeros, (decDigits_spec _).1], fun c hc => ?_⟩
    rcases List.mem_append.mp hc with hc | hc
    · rw [List.eq_of_mem_replicate hc]; decide
    · exact (decDigits_spec _).2 c hc
  have hneg : ∀ k : ℤ, ¬ 0 ≤ k → ∃ l, pad5 k = '-' :: l ∧ Spec.digitsValue l = (-k).toNat := by
    intro k hk
    simp only [pad5, if_neg hk]
    exact ⟨List.replicate (4 - (decDigits (-k).toNat).length) '0' ++ decDigits (-k).toNat, rfl,
      by rw [digitsValue_zeros, (decDigits_spec _).1]⟩
  by_cases ha : 0 ≤ a <;> by_cases hb : 0 ≤ b
  · have h1 := (hpos a ha).1
    have h2 := (hpos b hb).1
    rw [h] at h1
    omega
  · obtain ⟨l, hl, -⟩ := hneg b hb
    have := (hpos a ha).2 '-' (by rw [h, hl]; exact List.mem_cons_self)
    exact absurd rfl this
  · obtain ⟨l, hl, -⟩ := hneg a ha
    have := (hpos b hb).2 '-' (by rw [← h, hl]; exact List.mem_cons_self)
    exact absurd rfl this
  · obtain ⟨l, hl, h1⟩ := hneg a ha
    obtain ⟨m, hm, h2⟩ := hneg b hb
    rw [hl, hm] at h
    have : l = m := List.tail_eq_of_cons_eq h
    rw [this] at h1
    omega

/-- Distinct steps have distinct files, and no state file is the solver or metadata file. -/
theorem stateName_injective : Function.Injective stateName ∧ (∀ k, stateName k ≠ solverName) ∧
    (∀ k, stateName k ≠ metaName) ∧ solverName ≠ metaName := by
  refine ⟨fun a b h => ?_, fun k h => ?_, fun k h => ?_, by decide⟩
  · unfold stateName at h
    rw [List.append_assoc, List.append_assoc] at h
    exact pad5_injective (List.append_cancel_right (List.append_cancel_left h))
  · have h1 : stateName k = 's' :: 't' :: ("ate_".toList ++ pad5 k ++ ".eqx".toList) := rfl
    have h2 : solverName = 's' :: 'o' :: "lver_config.eqx".toList := by decide
    rw [h1, h2] at h
    have h3 := (List.cons.inj (List.cons.inj h).2).1
    exact absurd h3 (by decide)
  · have h1 : stateName k = 's' :: ("tate_".toList ++ pad5 k ++ ".eqx".toList) := rfl
    have h2 : metaName = 'm' :: "etadata.json".toList := by decide
    rw [h1, h2] at h
    have h3 := (List.cons.inj h).1
    exact absurd h3 (by decide)

example : stateName 42 = "state_00042.eqx".toList ∧ stateName 123456 = "state_123456.eqx".toList ∧
    stateName (-1) = "state_-0001.eqx".toList := by decide +kernel

/-! ### Saving -/

section
variable {St L Sh : Type*} [DecidableEq Sh] (shape : L → Sh)

theorem runPrims_append (d : Dir L) (ps qs : List (Prim L)) : runPrims d (ps ++ qs) = runPrims (runPrims d ps) qs :=
  List.foldl_append

/-- The name an elementary operation writes to. -/
def Prim.target : Prim L → List Char
  | .create n => n
  | .append n _ => n

theorem runPrims_other (ps : List (Prim L)) (n : List Char) (h : ∀ p ∈ ps, p.target ≠ n) (d : Dir L) :
    runPrims d ps n = d n := by
  induction ps generalizing d with
  | nil => rfl
  | cons p ps ih =>
    have h1 := h p List.mem_cons_self
    change runPrims (p.run d) ps n = d n
    rw [ih (fun q hq => h q (List.mem_cons_of_mem _ hq))]
    cases p <;> exact Function.update_of_ne (Ne.symm h1) _ _

theorem serialise_target (name : List Char) (t : Tree St L) : ∀ p ∈ serialise name t, p.target = name := by
  intro p hp
  rcases List.mem_cons.mp hp with rfl | hp
  · rfl
  · obtain ⟨l, -, rfl⟩ := List.mem_map.mp hp
    rfl

theorem append_run (name : List Char) (ls : List L) (d : Dir L) (bs : List (Blob L)) (hd : d name = some bs) :
    runPrims d (ls.map fun l => .append name (.leaf l)) name = some (bs ++ ls.map Blob.leaf) := by
  induction ls generalizing d bs with
  | nil => simp [runPrims, hd]
  | cons l ls ih =>
    have : (Prim.run d (.append name (.leaf l))) name = some (bs ++ [.leaf l]) := by
      simp [Prim.run, hd]
    change runPrims (Prim.run d (.append name (.leaf l))) _ name = _
    rw [ih _ _ this]
    simp

theorem serialise_run (name : List Char) (t : Tree St L) (d : Dir L) :
    runPrims d (serialise name t) name = some (t.leaves.map Blob.leaf) := by
  change runPrims (Prim.run d (.create name)) _ name = _
  rw [append_run name t.leaves _ [] (by simp [Prim.run])]
  rfl

theorem readLeaves_self {skel ls : List L} (h : skel.map shape = ls.map shape) :
    readLeaves shape skel (ls.map Blob.leaf) = .ok ls := by
  induction ls generalizing skel with
  | nil =>
    have : skel = [] := by simpa using h
    subst this; rfl
  | cons l ls ih =>
    cases skel with
    | nil => simp at h
    | cons s ss =>
      simp only [List.map_cons, List.cons.injEq] at h
      simp only [List.map_cons, readLeaves, if_pos h.1.symm, ih h.2]
      rfl

/-- A skeleton fits a tree: same static part, same number and shapes of leaves. -/
def Spec.Fits (skel t : Tree St L) : Prop := skel.static = t.static ∧ skel.leaves.map shape = t.leaves.map shape

theorem deserialise_serialise (name : List Char) (t skel : Tree St L) (d : Dir L) (h : Spec.Fits shape skel t) :
    deserialise shape (runPrims d (serialise name t)) name skel = .ok t := by
  simp only [deserialise, serialise_run, readLeaves_self shape h.2]
  change Except.ok _ = _
  rw [h.1]

/-- What a user does with a recorder. -/
inductive IOp (St L : Type*)
  | saveStep (s : SavedState St L)
  | saveSolver (solver : Tree St L) (meta_ : String)

/-- The elementary operations of a call. -/
def IOp.prims : IOp St L → List (Prim L)
  | .saveStep s => saveStepPrims s
  | .saveSolver t m => saveSolverPrims t m

/-- The directory after a sequence of calls. -/
def afterOps (d : Dir L) (ops : List (IOp St L)) : Dir L := ops.foldl (fun d o => runPrims d o.prims) d

/-- The last state saved with number `k`. -/
def Spec.lastSaved (k : ℤ) : List (IOp St L) → Option (Tree St L)
  | [] => none
  | .saveStep s :: ops => (lastSaved k ops).or (if s.step = k then some s.tree else none)
  | .saveSolver _ _ :: ops => lastSaved k ops

/-- The solver saved last. -/
def Spec.lastSolver : List (IOp St L) → Option (Tree St L)
  | [] => none
  | .saveStep _ :: ops => lastSolver ops
  | .saveSolver t _ :: ops => (lastSolver ops).or (some t)

theorem saveSolver_run (t : Tree St L) (m : String) (d : Dir L) :
    runPrims d (saveSolverPrims t m) solverName = some (t.leaves.map Blob.leaf) ∧
    ∀ n, n ≠ solverName → n ≠ metaName → runPrims d (saveSolverPrims t m) n = d n := by
  have hsm := stateName_injective.2.2.2
  rw [saveSolverPrims, runPrims_append]
  constructor
  · rw [runPrims_other]
    · exact serialise_run _ _ _
    · intro p hp
      simp only [List.mem_cons, List.not_mem_nil, or_false] at hp
      rcases hp with rfl | rfl <;> exact hsm.symm
  · intro n h1 h2
    rw [runPrims_other, runPrims_other]
    · intro p hp
      rw [serialise_target _ _ p hp]; exact h1.symm
    · intro p hp
      simp only [List.mem_cons, List.not_mem_nil, or_false] at hp
      rcases hp with rfl | rfl <;> exact h2.symm

theorem saveStep_run (s : SavedState St L) (d : Dir L) :
    runPrims d (saveStepPrims s) (stateName s.step) = some (s.tree.leaves.map Blob.leaf) ∧
    ∀ n, n ≠ stateName s.step → runPrims d (saveStepPrims s) n = d n :=
  ⟨serialise_run _ _ _, fun n h => runPrims_other _ n (fun p hp => by rw [saveStepPrims] at hp
                                                                      rw [serialise_target _ _ p hp]; exact h.symm) d⟩

theorem afterOps_state (ops : List (IOp St L)) (d : Dir L) (k : ℤ) :
    afterOps d ops (stateName k) = match Spec.lastSaved k ops with
      | some t => some (t.leaves.map Blob.leaf)
      | none => d (stateName k) := by
  induction ops generalizing d with
  | nil => rfl
  | cons o ops ih =>
    change afterOps (runPrims d o.prims) ops (stateName k) = _
    rw [ih]
    cases o with
    | saveStep s =>
      simp only [Spec.lastSaved, IOp.prims]
      cases h : Spec.lastSaved k ops with
      | some t => rfl
      | none =>
        simp only [Option.none_or]
        by_cases hk : s.step = k
        · subst hk
          rw [if_pos rfl, (saveStep_run s d).1]
        · rw [if_neg hk, (saveStep_run s d).2 _ fun e => hk (stateName_injective.1 e).symm]
    | saveSolver t m =>
      simp only [Spec.lastSaved, IOp.prims]
      rw [(saveSolver_run t m d).2 _ (stateName_injective.2.1 k) (stateName_injective.2.2.1 k)]

theorem afterOps_solver (ops : List (IOp St L)) (d : Dir L) :
    afterOps d ops solverName = match Spec.lastSolver ops with
      | some t => some (t.leaves.map Blob.leaf)
      | none => d solverName := by
  induction ops generalizing d with
  | nil => rfl
  | cons o ops ih =>
    change afterOps (runPrims d o.prims) ops solverName = _
    rw [ih]
    cases o with
    | saveStep s =>
      simp only [Spec.lastSolver, IOp.prims]
      rw [(saveStep_run s d).2 _ (stateName_injective.2.1 _).symm]
    | saveSolver t m =>
      simp only [Spec.lastSolver, IOp.prims]
      cases h : Spec.lastSolver ops with
      | some t => rfl
      | none =>
        simp only [Option.none_or]
        rw [(saveSolver_run t m d).1]

/-- **C56**: after any sequence of saves, loading step `k` with fitting skeletons returns the solver saved last and the
state saved last with number `k`; if none was saved, the files already there decide. -/
theorem load_last_saved (d : Dir L) (ops : List (IOp St L)) (k : ℤ) (solver state solverSkel stateSkel : Tree St L)
    (h1 : Spec.lastSolver ops = some solver) (h2 : Spec.lastSaved k ops = some state)
    (f1 : Spec.Fits shape solverSkel solver) (f2 : Spec.Fits shape stateSkel state) :
    loadSimulation shape (afterOps d ops) solverSkel stateSkel k = .ok (solver, state) := by
  have e1 := afterOps_solver ops d
  have e2 := afterOps_state ops d k
  rw [h1] at e1
  rw [h2] at e2
  have g1 : deserialise shape (afterOps d ops) solverName solverSkel = .ok solver := by
    simp only [deserialise, e1, readLeaves_self shape f1.2]
    change Except.ok _ = _
    rw [f1.1]
  have g2 : deserialise shape (afterOps d ops) (stateName k) stateSkel = .ok state := by
    simp only [deserialise, e2, readLeaves_self shape f2.2]
    change Except.ok _ = _
    rw [f2.1]
  simp only [loadSimulation, g1, g2]
  rfl

/-- **C56**: a step that was never saved is not found, in a fresh directory. -/
theorem load_unsaved (ops : List (IOp St L)) (k : ℤ) (solverSkel stateSkel : Tree St L)
    (h : Spec.lastSaved k ops = none) (r : Tree St L × Tree St L) :
    loadSimulation shape (afterOps (fun _ => none) ops) solverSkel stateSkel k ≠ .ok r := by
  have e2 := afterOps_state ops (fun _ => none) k
  rw [h] at e2
  have g2 : deserialise shape (afterOps (fun _ => none) ops) (stateName k) stateSkel = .error .fileNotFoundError := by
    simp only [deserialise, e2]
  intro hc
  simp only [loadSimulation, g2] at hc
  cases hs : deserialise shape (afterOps (fun _ => none) ops) solverName solverSkel with
  | error e => rw [hs] at hc; exact absurd hc (by simp [bind, Except.bind])
  | ok v => rw [hs] at hc; exact absurd hc (by simp [bind, Except.bind])

/-- Step 9 was never saved. -/
example (a b : Tree Unit (ℕ × ℕ)) (r) := load_unsaved (fun l : ℕ × ℕ => l.1) [.saveSolver ⟨(), [(1, 5)]⟩ "m",
  .saveStep ⟨7, ⟨(), [(2, 1), (3, 1)]⟩⟩] 9 a b rfl r

/-! ### Crashes -/

/-- **C57**: whatever prefix of the writes of `save_step` reaches the disk, every other step is loaded as before. -/
theorem crash_other_steps (d : Dir L) (s : SavedState St L) (m : ℕ) (k : ℤ) (hk : k ≠ s.step)
    (solverSkel stateSkel : Tree St L) :
    loadSimulation shape (runPrims d ((saveStepPrims s).take m)) solverSkel stateSkel k =
      loadSimulation shape d solverSkel stateSkel k := by
  have h : ∀ n, n ≠ stateName s.step → runPrims d ((saveStepPrims s).take m) n = d n := by
    intro n hn
    refine runPrims_other _ n (fun p hp => ?_) d
    have := List.mem_of_mem_take hp
    rw [saveStepPrims] at this
    rw [serialise_target _ _ p this]
    exact hn.symm
  simp only [loadSimulation, deserialise, h _ (stateName_injective.2.1 _).symm,
    h _ fun e => hk (stateName_injective.1 e)]

/-- A crash while step 8 is written leaves step 7 readable as before. -/
example (d : Dir (ℕ × ℕ)) (m : ℕ) (a b : Tree Unit (ℕ × ℕ)) :
    loadSimulation (fun l : ℕ × ℕ => l.1) (runPrims d ((saveStepPrims ⟨8, ⟨(), [(2, 2), (3, 2)]⟩⟩).take m)) a b 7 =
      loadSimulation (fun l : ℕ × ℕ => l.1) d a b 7 := crash_other_steps _ d ⟨8, _⟩ m 7 (by norm_num) a b

theorem readLeaves_short {skel : List L} {bs : List (Blob L)} (h : bs.length < skel.length) (ls : List L) :
    readLeaves shape skel bs ≠ .ok ls := by
  induction skel generalizing bs ls with
  | nil => simp at h
  | cons s ss ih =>
    cases bs with
    | nil => simp [readLeaves]
    | cons b bs =>
      simp only [List.length_cons, Nat.add_lt_add_iff_right] at h
      cases b with
      | text t => simp [readLeaves]
      | leaf l =>
        simp only [readLeaves]
        split_ifs
        · intro hc
          cases hr : readLeaves shape ss bs with
          | error e => rw [hr] at hc; simp [Except.map] at hc
          | ok v => exact ih h v hr
        · simp

/-- **C70**: after an interrupted `save_step` of step `k`, loading `k` gives what was there before, the new state, or an
error; never a mixture. -/
theorem crash_same_step (d : Dir L) (s : SavedState St L) (m : ℕ) (skel : Tree St L) (hf : Spec.Fits shape skel s.tree)
    (t : Tree St L)
    (h : deserialise shape (runPrims d ((saveStepPrims s).take m)) (stateName s.step) skel = .ok t) :
    t = s.tree ∨ (m = 0 ∧ deserialise shape d (stateName s.step) skel = .ok t) := by
  rcases m with _ | m
  · exact Or.inr ⟨rfl, by simpa [runPrims] using h⟩
  · left
    have e : (saveStepPrims s).take (m + 1) = serialise (stateName s.step) { s.tree with leaves := s.tree.leaves.take m } := by
      simp [saveStepPrims, serialise, List.map_take]
    rw [e] at h
    simp only [deserialise, serialise_run] at h
    have hlen : skel.leaves.length = s.tree.leaves.length := by
      simpa using congrArg List.length hf.2
    by_cases hm : s.tree.leaves.length ≤ m
    · rw [List.take_of_length_le hm, readLeaves_self shape hf.2] at h
      change Except.ok _ = _ at h
      rw [← Except.ok.inj h, hf.1]
    · exfalso
      cases hr : readLeaves shape skel.leaves ((s.tree.leaves.take m).map Blob.leaf) with
      | error e => rw [hr] at h; simp [Except.map] at h
      | ok v => exact readLeaves_short shape (by simp; omega) v hr

/-- The interrupted save can lose step `k` itself: after the file has been opened, the old state is gone. -/
theorem crash_loses_step (d : Dir L) (s : SavedState St L) (skel t : Tree St L) (hs : skel.leaves ≠ []) :
    deserialise shape (runPrims d ((saveStepPrims s).take 1)) (stateName s.step) skel ≠ .ok t := by
  intro h
  have e : runPrims d ((saveStepPrims s).take 1) (stateName s.step) = some [] := by
    simp [saveStepPrims, serialise, runPrims, Prim.run]
  simp only [deserialise, e] at h
  cases hr : readLeaves shape skel.leaves [] with
  | error e => rw [hr] at h; simp [Except.map] at h
  | ok v =>
    refine readLeaves_short shape ?_ v hr
    exact List.length_pos_iff.mpr hs

example (d : Dir (ℕ × ℕ)) (t : Tree Unit (ℕ × ℕ)) := crash_loses_step (fun l : ℕ × ℕ => l.1) d ⟨8, ⟨(), [(2, 2), (3, 2)]⟩⟩
  ⟨(), [(2, 0), (3, 0)]⟩ t (by simp)

end

/-! ### Opening -/

/-- **C58**: opening with `overwrite=False` changes no existing directory; the default empties the directory at the given
path; no other path is touched, and the directory exists afterwards. -/
theorem open_recorder {L : Type*} (disk : Disk L) (path : String) :
    (∀ ow q, q ≠ path → openRecorder disk path ow q = disk q) ∧
    (∀ d, disk path = some d → openRecorder disk path false path = some d) ∧
    (∀ n, ∃ d, openRecorder disk path true path = some d ∧ d n = none) ∧
    openRecorder disk path = openRecorder disk path true ∧
    (∀ ow, (openRecorder disk path ow path).isSome) := by
  refine ⟨fun ow q hq => Function.update_of_ne hq _ _, fun d hd => ?_, fun n => ?_, rfl, fun ow => ?_⟩
  · simp [openRecorder, hd]
  · refine ⟨fun _ => none, ?_, rfl⟩
    unfold openRecorder
    rw [Function.update_self]
    cases disk path <;> simp
  · unfold openRecorder
    rw [Function.update_self]
    cases disk path <;> cases ow <;> simp

/-- Two states saved under number 7, one under 8, and the solver: the second save of 7 is found. -/
example : loadSimulation (fun l : ℕ × ℕ => l.1)
    (afterOps (fun _ => none) [.saveSolver ⟨(), [(1, 5)]⟩ "m", .saveStep ⟨7, ⟨(), [(2, 1), (3, 1)]⟩⟩,
      .saveStep ⟨8, ⟨(), [(2, 2), (3, 2)]⟩⟩, .saveStep ⟨7, ⟨(), [(2, 9), (3, 9)]⟩⟩])
    ⟨(), [(1, 0)]⟩ ⟨(), [(2, 0), (3, 0)]⟩ 7 = .ok (⟨(), [(1, 5)]⟩, ⟨(), [(2, 9), (3, 9)]⟩) :=
  load_last_saved _ _ _ _ _ _ _ _ rfl rfl ⟨rfl, rfl⟩ ⟨rfl, rfl⟩

end Hydrax
