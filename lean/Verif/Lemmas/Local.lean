import Verif.Lemmas.LatTransfer
import Verif.Lemmas.Fold
import Verif.Model.LawTable
import Verif.Model.Asflip

/-!
# Two runs that agree on a set of points (helper lemmas)
-/

set_option linter.unusedSectionVars false

namespace Hydrax

open Spec

/-- If both succeed, the results are related. -/
def Both {α β : Type*} (R : α → β → Prop) (x : Except PyErr α) (y : Except PyErr β) : Prop :=
  ∀ a b, x = .ok a → y = .ok b → R a b

theorem Both.ok {α β : Type*} {R : α → β → Prop} {a : α} {b : β} (h : R a b) : Both R (.ok a) (.ok b) := by
  intro a' b' ha hb
  cases ha; cases hb; exact h

theorem Both.errL {α β : Type*} {R : α → β → Prop} {e : PyErr} {y : Except PyErr β} : Both R (.error e) y := by
  intro a' b' ha; cases ha

theorem Both.errR {α β : Type*} {R : α → β → Prop} {e : PyErr} {x : Except PyErr α} : Both R x (.error e) := by
  intro a' b' _ hb; cases hb

theorem Both.andThen {α β γ δ : Type*} {R : α → β → Prop} {S : γ → δ → Prop} {x : Except PyErr α} {y : Except PyErr β}
    (h : Both R x y) {f : α → Except PyErr γ} {f' : β → Except PyErr δ} (hf : ∀ a b, R a b → Both S (f a) (f' b)) :
    Both S (Hydrax.andThen x f) (Hydrax.andThen y f') := by
  cases x with
  | error e => exact Both.errL
  | ok a =>
    cases y with
    | error e => exact Both.errR
    | ok b => exact hf a b (h a b rfl rfl)

theorem Both.foldE {σ τ ι : Type*} {R : σ → τ → Prop} {f : σ → ι → Except PyErr σ} {f' : τ → ι → Except PyErr τ} :
    ∀ (l : List ι) {a : σ} {b : τ}, (∀ i ∈ l, ∀ a b, R a b → Both R (f a i) (f' b i)) → R a b →
      Both R (Hydrax.foldE f a l) (Hydrax.foldE f' b l) := by
  intro l
  induction l with
  | nil => intro a b _ h; exact Both.ok h
  | cons i l ih =>
    intro a b hf h
    have := hf i List.mem_cons_self a b h
    simp only [Hydrax.foldE]
    cases ha : f a i with
    | error e => exact Both.errL
    | ok a' =>
      cases hb : f' b i with
      | error e => exact Both.errR
      | ok b' => exact ih (fun j hj => hf j (List.mem_cons_of_mem _ hj)) (this a' b' ha hb)

theorem const_inj {α : Type*} {x y : α} (h : (fun _ : ℕ => x) = fun _ => y) : x = y := congrFun h 0

section
variable {K : Type*} {dim n : ℕ}

/-- Point `q` of a deformable body alone. -/
def Spec.pointOf (s : MPState K dim n) (q : Fin n) : MPState K dim 1 :=
  { position := fun _ => s.position q, velocity := fun _ => s.velocity q, force := fun _ => s.force q
    mass := fun _ => s.mass q, volume := fun _ => s.volume q, volume0 := fun _ => s.volume0 q, L := fun _ => s.L q
    stress := fun _ => s.stress q, F := fun _ => s.F q, FStore := s.FStore.map fun f _ => f q, volScalar := s.volScalar }

/-- Point `q` of a body alone. -/
def Spec.bodyPoint (q : Fin n) : Body K dim n → Body K dim 1
  | .deformable s => .deformable (pointOf s q)
  | .rigid r => .rigid { position := fun _ => r.position q, velocity := fun _ => r.velocity q, mass := fun _ => r.mass q
                         normal := fun _ => r.normal q }

/-- Entry `i` of the state of a law alone. -/
def Spec.lawEntry (i : ℕ) : LawState K → LawState K
  | .elastic r => .elastic fun _ => r i
  | .density r => .density fun _ => r i
  | .dp e a b => .dp (fun _ => e i) (fun _ => a i) fun _ => b i
  | .mcc pc r e => .mcc (fun _ => pc i) (r.map fun f _ => f i) fun _ => e i

theorem pointOf_eq {s s' : MPState K dim n} {q : Fin n} (h : pointOf s q = pointOf s' q) :
    s.position q = s'.position q ∧ s.velocity q = s'.velocity q ∧ s.force q = s'.force q ∧ s.mass q = s'.mass q ∧
    s.volume q = s'.volume q ∧ s.volume0 q = s'.volume0 q ∧ s.L q = s'.L q ∧ s.stress q = s'.stress q ∧ s.F q = s'.F q ∧
    (s.FStore.map fun f (_ : Fin 1) => f q) = (s'.FStore.map fun f (_ : Fin 1) => f q) ∧ s.volScalar = s'.volScalar := by
  exact ⟨congrFun (congrArg MPState.position h) 0, congrFun (congrArg MPState.velocity h) 0, congrFun (congrArg MPState.force h) 0,
    congrFun (congrArg MPState.mass h) 0, congrFun (congrArg MPState.volume h) 0, congrFun (congrArg MPState.volume0 h) 0,
    congrFun (congrArg MPState.L h) 0, congrFun (congrArg MPState.stress h) 0, congrFun (congrArg MPState.F h) 0,
    congrArg MPState.FStore h, congrArg (fun t : MPState K dim 1 => t.volScalar) h⟩

theorem bodyPoint_position {b b' : Body K dim n} {q : Fin n} (h : bodyPoint q b = bodyPoint q b') :
    b.position q = b'.position q := by
  cases b with
  | deformable s =>
    cases b' with
    | deformable s' => exact (pointOf_eq (Body.deformable.inj h)).1
    | rigid r' => cases h
  | rigid r =>
    cases b' with
    | deformable s' => cases h
    | rigid r' => exact congrFun (congrArg RigidState.position (Body.rigid.inj h)) 0

end

section
variable {K : Type*} [Field K] [LinearOrder K] [IsStrictOrderedRing K] [FloorRing K] {dim n w : ℕ}

/-- Two interaction lists agree for the points of `A`, and other points do not reach the nodes of `N`. -/
structure ListLoc (A : Fin n → Prop) (N : ℕ → Prop) (c c' : InteractionCache K n w) : Prop where
  ids : ∀ i, c'.pointId i = c.pointId i
  one : ∀ i, c.cpicMask i = 1
  one' : ∀ i, c'.cpicMask i = 1
  row : ∀ i, A (c.pointId i) → c'.row i = c.row i
  out : ∀ i, ¬ A (c.pointId i) → N (c.nodeHash i) → c.shapeVal i = 0 ∧ c.shapeGrad i = fun _ => 0
  out' : ∀ i, ¬ A (c.pointId i) → N (c'.nodeHash i) → c'.shapeVal i = 0 ∧ c'.shapeGrad i = fun _ => 0

/-- Nodal arrays agree on the nodes of `N`. -/
def GridLoc (N : ℕ → Prop) (a a' : GridArrays K dim) : Prop :=
  ∀ j, N j → a.mass j = a'.mass j ∧ a.moment j = a'.moment j ∧ a.momentNt j = a'.momentNt j ∧ a.force j = a'.force j

variable {A : Fin n → Prop} {N : ℕ → Prop} {c c' : InteractionCache K n w}

/-- Sums collected by a node of `N` agree. -/
theorem ListLoc.scatter (hc : ListLoc A N c c') (G G' : Fin n → Interaction K → K) (hG : ∀ p, Vanishes (G p))
    (hG' : ∀ p, Vanishes (G' p)) (e : ∀ p, A p → G p = G' p) {j : ℕ} (hj : N j) :
    scatterAdd c.nodeHash (fun i => G (c.pointId i) (c.row i)) j
      = scatterAdd c'.nodeHash (fun i => G' (c'.pointId i) (c'.row i)) j := by
  unfold scatterAdd
  refine Finset.sum_congr rfl fun i _ => ?_
  beta_reduce
  rw [hc.ids i]
  by_cases hA : A (c.pointId i)
  · have hr := hc.row i hA
    have hh : c'.nodeHash i = c.nodeHash i := congrArg Interaction.nodeHash hr
    rw [hr, hh, e _ hA]
  · have z1 : (if c.nodeHash i = j then G (c.pointId i) (c.row i) else 0) = 0 := by
      split_ifs with h
      · have := hc.out i hA (h ▸ hj)
        exact hG _ _ this.1 this.2
      · rfl
    have z2 : (if c'.nodeHash i = j then G' (c.pointId i) (c'.row i) else 0) = 0 := by
      split_ifs with h
      · have := hc.out' i hA (h ▸ hj)
        exact hG' _ _ this.1 this.2
      · rfl
    rw [z1, z2]

theorem GridLoc.p2g (hc : ListLoc A N c c') {s s' : MPState K dim n} (hs : ∀ q, A q → pointOf s q = pointOf s' q)
    {a a' : GridArrays K dim} (ha : GridLoc N a a') : GridLoc N (p2gBody c s a) (p2gBody c' s' a') := by
  intro j hj
  obtain ⟨h1, h2, h3, h4⟩ := ha j hj
  refine ⟨?_, ?_, h3, ?_⟩
  · have e := hc.scatter (fun p I => I.shapeVal * 1 * s.mass p) (fun p I => I.shapeVal * 1 * s'.mass p)
      (fun p I h _ => by beta_reduce; rw [h]; ring) (fun p I h _ => by beta_reduce; rw [h]; ring)
      (fun p hp => by rw [(pointOf_eq (hs p hp)).2.2.2.1]) hj
    simp only [p2gBody, hc.one, hc.one', h1]
    exact congrArg (a'.mass j + ·) e
  · funext b
    have e := hc.scatter (fun p I => I.shapeVal * 1 * s.mass p * s.velocity p b)
      (fun p I => I.shapeVal * 1 * s'.mass p * s'.velocity p b)
      (fun p I h _ => by beta_reduce; rw [h]; ring) (fun p I h _ => by beta_reduce; rw [h]; ring)
      (fun p hp => by rw [(pointOf_eq (hs p hp)).2.2.2.1, (pointOf_eq (hs p hp)).2.1]) hj
    simp only [p2gBody, hc.one, hc.one', h2]
    exact congrArg (a'.moment j b + ·) e
  · funext b
    have e := hc.scatter
      (fun p I => 1 * s.volume p * internTerm dim (s.stress p) I.shapeGrad b * 1 + I.shapeVal * 1 * s.force p b)
      (fun p I => 1 * s'.volume p * internTerm dim (s'.stress p) I.shapeGrad b * 1 + I.shapeVal * 1 * s'.force p b)
      (fun p I h h' => by beta_reduce; rw [h, h', LatSym.intern_zero]; ring)
      (fun p I h h' => by beta_reduce; rw [h, h', LatSym.intern_zero]; ring)
      (fun p hp => by
        obtain ⟨-, -, e3, -, e5, -, -, e8, -⟩ := pointOf_eq (hs p hp)
        rw [e3, e5, e8]) hj
    simp only [p2gBody, hc.one, hc.one']
    exact congrArg ((0 : K) + ·) e

theorem GridLoc.aflipP2g (hc : ListLoc A N c c') (cell : K) {B B' : Fin n → Mat3 K} (hB : ∀ q, A q → B q = B' q)
    {s s' : MPState K dim n} (hs : ∀ q, A q → pointOf s q = pointOf s' q) {a a' : GridArrays K dim} (ha : GridLoc N a a') :
    GridLoc N (aflipP2gBody cell c B s a) (aflipP2gBody cell c' B' s' a') := by
  have hp := GridLoc.p2g hc hs ha
  intro j hj
  refine ⟨(hp j hj).1, ?_, (hp j hj).2.2.1, (hp j hj).2.2.2⟩
  funext b
  have e := hc.scatter (fun p I => I.shapeVal * 1 * s.mass p * (s.velocity p b
      - trunc3 dim (fun r => ∑ k, B p r k * (-1 * I.relDist k * cell)) b))
    (fun p I => I.shapeVal * 1 * s'.mass p * (s'.velocity p b
      - trunc3 dim (fun r => ∑ k, B' p r k * (-1 * I.relDist k * cell)) b))
    (fun p I h _ => by beta_reduce; rw [h]; ring) (fun p I h _ => by beta_reduce; rw [h]; ring)
    (fun p hp => by rw [(pointOf_eq (hs p hp)).2.2.2.1, (pointOf_eq (hs p hp)).2.1, hB p hp]) hj
  simp only [aflipP2gBody, distPhys, hc.one, hc.one', (ha j hj).2.1]
  exact congrArg (a'.moment j b + ·) e

/-- Sums collected by a point whose nodes are in `N` agree. -/
theorem ListLoc.gather (hc : ListLoc A N c c') {q : Fin n} (hq : A q)
    (hN : ∀ i, c.pointId i = q → c.shapeVal i ≠ 0 ∨ c.shapeGrad i ≠ (fun _ => 0) → N (c.nodeHash i)) (G G' : Interaction K → K)
    (hG : Vanishes G) (hG' : Vanishes G') (e : ∀ I, N I.nodeHash → G I = G' I) :
    pointSum c (fun i => G (c.row i)) q = pointSum c' (fun i => G' (c'.row i)) q := by
  unfold pointSum
  have hf : Finset.univ.filter (fun i => c'.pointId i = q) = Finset.univ.filter (fun i => c.pointId i = q) := by
    simp only [hc.ids]
  rw [hf]
  refine Finset.sum_congr rfl fun i hi => ?_
  have hi := (Finset.mem_filter.mp hi).2
  beta_reduce
  rw [hc.row i (hi ▸ hq)]
  by_cases h0 : c.shapeVal i = 0 ∧ c.shapeGrad i = fun _ => 0
  · rw [hG _ h0.1 h0.2, hG' _ h0.1 h0.2]
  · exact e _ (hN i hi (by tauto))

/-- The nodes a point is connected to are in `N`. -/
def NodesIn (N : ℕ → Prop) (c : InteractionCache K n w) (q : Fin n) : Prop :=
  ∀ i, c.pointId i = q → c.shapeVal i ≠ 0 ∨ c.shapeGrad i ≠ (fun _ => 0) → N (c.nodeHash i)

theorem g2p_local (hc : ListLoc A N c c') (alpha dt : K) (gh gh' : Option (Fin n → Fin dim → K)) {a a' : GridArrays K dim}
    (ha : GridLoc N a a') {s s' : MPState K dim n} {q : Fin n} (hq : A q) (hN : NodesIn N c q) (hs : pointOf s q = pointOf s' q) :
    pointOf (g2pBody alpha dt c gh a s) q = pointOf (g2pBody alpha dt c' gh' a' s') q := by
  have eN : ∀ b, pointSum c (fun i => c.shapeVal i * nodeVel uslCutoff (a.mass (c.nodeHash i)) (a.momentNt (c.nodeHash i) b)) q
      = pointSum c' (fun i => c'.shapeVal i * nodeVel uslCutoff (a'.mass (c'.nodeHash i)) (a'.momentNt (c'.nodeHash i) b)) q := fun b =>
    hc.gather hq hN (fun I => I.shapeVal * nodeVel uslCutoff (a.mass I.nodeHash) (a.momentNt I.nodeHash b))
      (fun I => I.shapeVal * nodeVel uslCutoff (a'.mass I.nodeHash) (a'.momentNt I.nodeHash b))
      (fun I h _ => by beta_reduce; rw [h, zero_mul]) (fun I h _ => by beta_reduce; rw [h, zero_mul])
      (fun I hI => by obtain ⟨h1, h2, h3, h4⟩ := ha _ hI; rw [h1, h3])
  have eD : ∀ b, pointSum c (fun i => c.shapeVal i * (nodeVel uslCutoff (a.mass (c.nodeHash i)) (a.momentNt (c.nodeHash i) b)
        - nodeVel uslCutoff (a.mass (c.nodeHash i)) (a.moment (c.nodeHash i) b))) q
      = pointSum c' (fun i => c'.shapeVal i * (nodeVel uslCutoff (a'.mass (c'.nodeHash i)) (a'.momentNt (c'.nodeHash i) b)
        - nodeVel uslCutoff (a'.mass (c'.nodeHash i)) (a'.moment (c'.nodeHash i) b))) q := fun b =>
    hc.gather hq hN (fun I => I.shapeVal * (nodeVel uslCutoff (a.mass I.nodeHash) (a.momentNt I.nodeHash b)
        - nodeVel uslCutoff (a.mass I.nodeHash) (a.moment I.nodeHash b)))
      (fun I => I.shapeVal * (nodeVel uslCutoff (a'.mass I.nodeHash) (a'.momentNt I.nodeHash b)
        - nodeVel uslCutoff (a'.mass I.nodeHash) (a'.moment I.nodeHash b)))
      (fun I h _ => by beta_reduce; rw [h, zero_mul]) (fun I h _ => by beta_reduce; rw [h, zero_mul])
      (fun I hI => by obtain ⟨h1, h2, h3, h4⟩ := ha _ hI; rw [h1, h2, h3])
  have eL : (fun x y => pointSum c (fun i => c.shapeGrad i x *
        -(pad3 (fun b => nodeVel uslCutoff (a.mass (c.nodeHash i)) (a.momentNt (c.nodeHash i) b)) y)) q)
      = (fun x y => pointSum c' (fun i => c'.shapeGrad i x *
        -(pad3 (fun b => nodeVel uslCutoff (a'.mass (c'.nodeHash i)) (a'.momentNt (c'.nodeHash i) b)) y)) q) := by
    funext x y
    exact hc.gather hq hN (fun I => I.shapeGrad x * -(pad3 (fun b => nodeVel uslCutoff (a.mass I.nodeHash) (a.momentNt I.nodeHash b)) y))
      (fun I => I.shapeGrad x * -(pad3 (fun b => nodeVel uslCutoff (a'.mass I.nodeHash) (a'.momentNt I.nodeHash b)) y))
      (fun I _ h => by beta_reduce; rw [h, zero_mul]) (fun I _ h => by beta_reduce; rw [h, zero_mul])
      (fun I hI => by obtain ⟨h1, h2, h3, h4⟩ := ha _ hI; rw [h1, h3])
  obtain ⟨p1, p2, p3, p4, p5, p6, p7, p8, p9, p10, p11⟩ := pointOf_eq hs
  unfold g2pBody pointOf
  simp only [LatSym.ghost_one hc.one, LatSym.ghost_one hc.one', eN, eD, eL, p1, p2, p3, p4, p6, p8, p9, p10]

theorem aflipG2p_local (hc : ListLoc A N c c') (sqrt : K → K) (pr : AflipParams K) (cell dt : K) {a a' : GridArrays K dim}
    (ha : GridLoc N a a') {s s' : MPState K dim n} {q : Fin n} (hq : A q) (hN : NodesIn N c q) (hs : pointOf s q = pointOf s' q) :
    pointOf (aflipG2pMls sqrt pr cell dt c a s).1 q = pointOf (aflipG2pMls sqrt pr cell dt c' a' s').1 q ∧
    (aflipG2pMls sqrt pr cell dt c a s).2 q = (aflipG2pMls sqrt pr cell dt c' a' s').2 q := by
  have eN : (aflipGather pr.cutoff c a).pVelNt q = (aflipGather pr.cutoff c' a').pVelNt q := by
    funext b
    exact hc.gather hq hN (fun I => I.shapeVal * nodeVel pr.cutoff (a.mass I.nodeHash) (a.momentNt I.nodeHash b))
      (fun I => I.shapeVal * nodeVel pr.cutoff (a'.mass I.nodeHash) (a'.momentNt I.nodeHash b))
      (fun I h _ => by beta_reduce; rw [h, zero_mul]) (fun I h _ => by beta_reduce; rw [h, zero_mul])
      (fun I hI => by obtain ⟨h1, h2, h3, h4⟩ := ha _ hI; rw [h1, h3])
  have eV : (aflipGather pr.cutoff c a).pVel q = (aflipGather pr.cutoff c' a').pVel q := by
    funext b
    exact hc.gather hq hN (fun I => I.shapeVal * nodeVel pr.cutoff (a.mass I.nodeHash) (a.moment I.nodeHash b))
      (fun I => I.shapeVal * nodeVel pr.cutoff (a'.mass I.nodeHash) (a'.moment I.nodeHash b))
      (fun I h _ => by beta_reduce; rw [h, zero_mul]) (fun I h _ => by beta_reduce; rw [h, zero_mul])
      (fun I hI => by obtain ⟨h1, h2, h3, h4⟩ := ha _ hI; rw [h1, h2])
  have eB : (aflipGather pr.cutoff c a).pBp q = (aflipGather pr.cutoff c' a').pBp q := by
    funext x y
    exact hc.gather hq hN (fun I => -(pad3 (fun b => nodeVel pr.cutoff (a.mass I.nodeHash) (a.momentNt I.nodeHash b)) x * I.shapeGrad y))
      (fun I => -(pad3 (fun b => nodeVel pr.cutoff (a'.mass I.nodeHash) (a'.momentNt I.nodeHash b)) x * I.shapeGrad y))
      (fun I _ h => by beta_reduce; rw [h, mul_zero, neg_zero]) (fun I _ h => by beta_reduce; rw [h, mul_zero, neg_zero])
      (fun I hI => by obtain ⟨h1, h2, h3, h4⟩ := ha _ hI; rw [h1, h3])
  have eM : pointSum c (fun i => c.shapeVal i * a.mass (c.nodeHash i)) q
      = pointSum c' (fun i => c'.shapeVal i * a'.mass (c'.nodeHash i)) q :=
    hc.gather hq hN (fun I => I.shapeVal * a.mass I.nodeHash) (fun I => I.shapeVal * a'.mass I.nodeHash)
      (fun I h _ => by beta_reduce; rw [h, zero_mul]) (fun I h _ => by beta_reduce; rw [h, zero_mul])
      (fun I hI => by obtain ⟨h1, h2, h3, h4⟩ := ha _ hI; rw [h1])
  obtain ⟨p1, p2, p3, p4, p5, p6, p7, p8, p9, p10, p11⟩ := pointOf_eq hs
  have eA : dynAlpha pr c a s q = dynAlpha pr c' a' s' q := by
    unfold dynAlpha
    simp only [eM, p4]
  refine ⟨?_, eB⟩
  unfold aflipG2pMls pointOf
  simp only [eN, eV, eB, eA, p1, p2, p3, p4, p6, p8, p9, Option.map_map, MPState.mk.injEq, true_and, and_true]
  have := congrArg (Option.map fun (f : Fin 1 → Mat3 K) (x : Fin 1) =>
    (1 - dt • if dim = 2 then set22 ((aflipGather pr.cutoff c' a').pBp q) 0 else (aflipGather pr.cutoff c' a').pBp q) * f x) p10
  simpa only [Option.map_map, Function.comp_def, eB] using this

/-- Laws of the package act on each point by itself. -/
theorem libLaw_local {law : Law K dim (LawState K)} (hl : LibLaw law) {s s' : MPState K dim n} {ls ls' : LawState K} {q : Fin n}
    (hs : pointOf s q = pointOf s' q) (hls : lawEntry q ls = lawEntry q ls') (dt : K) :
    Both (fun r r' => pointOf r.1 q = pointOf r'.1 q ∧ lawEntry q r.2 = lawEntry q r'.2) (law.update s ls dt) (law.update s' ls' dt) := by
  obtain ⟨p1, p2, p3, p4, p5, p6, p7, p8, p9, p10, p11⟩ := pointOf_eq hs
  have hd : s.density q = s'.density q := by unfold MPState.density; rw [p4, p5]
  cases hl with
  | elastic E nu reset =>
    refine Both.ok ⟨?_, hls⟩
    simp only [pointOf, p1, p2, p3, p4, p5, p6, p7, p8, p9, p10, p11]
  | fluid fn pr reset =>
    cases ls <;> cases ls' <;> first | exact Both.errL | exact Both.errR | skip
    simp only [lawEntry, LawState.density.injEq] at hls
    simp only [fluidLaw]
    split_ifs <;> first | exact Both.errL | exact Both.errR | skip
    refine Both.ok ⟨?_, congrArg LawState.density hls⟩
    simp only [pointOf, p1, p2, p3, p4, p5, p6, p7, p9, p10, p11, const_inj hls]
  | muI fn pr reset =>
    cases ls <;> cases ls' <;> first | exact Both.errL | exact Both.errR | skip
    simp only [lawEntry, LawState.density.injEq] at hls
    simp only [muILaw]
    split_ifs <;> first | exact Both.errL | exact Both.errR | skip
    refine Both.ok ⟨?_, congrArg LawState.density hls⟩
    simp only [pointOf, p1, p2, p3, p4, p5, p6, p7, p9, p10, p11, const_inj hls]
  | dp fn pr reset =>
    cases ls <;> cases ls' <;> first | exact Both.errL | exact Both.errR | skip
    simp only [lawEntry, LawState.dp.injEq] at hls
    obtain ⟨l1, l2, l3⟩ := hls
    refine Both.ok ⟨?_, ?_⟩
    · simp only [pointOf, p1, p2, p3, p4, p5, p6, p7, p9, p10, p11, const_inj l1, const_inj l2, const_inj l3, hd]
    · simp only [lawEntry, ofFin, q.isLt, dif_pos, Fin.eta, p7, const_inj l1, const_inj l2, const_inj l3, hd]
  | mcc fn ops pr reset =>
    cases ls <;> cases ls' <;> first | exact Both.errL | exact Both.errR | skip
    rename_i pc r e pc' r' e'
    simp only [lawEntry, LawState.mcc.injEq] at hls
    obtain ⟨l1, l2, l3⟩ := hls
    cases r <;> cases r' <;> first | exact Both.errL | exact Both.errR | skip
    simp only [Option.map_some, Option.some.injEq] at l2
    refine Both.ok ⟨?_, ?_⟩
    · simp only [pointOf, p1, p2, p3, p4, p5, p6, p7, p8, p9, p10, p11, const_inj l1, const_inj l2, const_inj l3, hd]
    · simp only [lawEntry, ofFin, q.isLt, dif_pos, Fin.eta, p7, p8, const_inj l1, const_inj l2, const_inj l3, hd, Option.map_some]

theorem removeShear_local (fn : MathFns K) (reset : Bool) {s s' : MPState K dim n} {q : Fin n} (hs : pointOf s q = pointOf s' q) :
    pointOf (removeShear fn reset s) q = pointOf (removeShear fn reset s') q := by
  obtain ⟨p1, p2, p3, p4, p5, p6, p7, p8, p9, p10, p11⟩ := pointOf_eq hs
  unfold removeShear
  split_ifs
  · simp only [pointOf, p1, p2, p3, p4, p5, p6, p7, p8, p9, p11, Option.map_map, MPState.mk.injEq, true_and, and_true]
    have := congrArg (Option.map fun (_ : Fin 1 → Mat3 K) (_ : Fin 1) => s'.F q) p10
    simpa only [Option.map_map, Function.comp_def, p9] using this
  · exact hs

end
end Hydrax
