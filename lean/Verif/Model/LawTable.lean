import Verif.Model.CamClay

/-!
# The laws of the package as used by the solver

`update` of every law (`vmap` of the single-point update over the points of a body), as `Law` records.
-/

namespace Hydrax

/-- Entries of `mechanics.constitutive_laws`: the state classes of the five laws. A law given a state of
another class fails with `AttributeError`. `stressRef = none` is the `None` left by
`create_state_from_stress` and `create_state_from_density` (modifiedcamclay.py:289, 330). -/
inductive LawState (K : Type*)
  | elastic (stressRef : ℕ → Mat3 K)
  | density (rhoRef : ℕ → K)
  | dp (epsE : ℕ → Mat3 K) (epsP p0 : ℕ → K)
  | mcc (pc : ℕ → K) (stressRef : Option (ℕ → Mat3 K)) (epsE : ℕ → Mat3 K)

section
variable {K : Type*} [Field K] [LinearOrder K] {dim : ℕ}

/-- Extend per-point results to an array indexed by point number. -/
def ofFin {α : Type*} {n : ℕ} (dflt : α) (f : Fin n → α) : ℕ → α :=
  fun i => if h : i < n then f ⟨i, h⟩ else dflt

/-- `LinearElasticLaw.update` (linearelastic.py:116-128). -/
def elasticLaw (E nu : K) (reset : Bool) : Law K dim (LawState K) :=
  { update := fun s ls dt => .ok ({ s with stress := fun p => elasticStress E nu (s.L p) (s.stress p) dt }, ls)
    requiresFReset := reset }

/-- `NewtonFluid.update` (newtonfluid.py:130-152). `vmap` over a 0-d `volume_stack` raises `ValueError`. -/
def fluidLaw (fn : MathFns K) (pr : FluidParams K) (reset : Bool) : Law K dim (LawState K) :=
  { update := fun s ls _ =>
      match ls with
      | .density r =>
        let σ := fun p => fluidStress fn pr (s.L p) (s.mass p) (s.volume p) (r p.val)
        if s.volScalar then .error .valueError else .ok ({ s with stress := σ }, ls)
      | _ => .error .attributeError
    requiresFReset := reset }

/-- `MuI_LC.update` (mu_i_rheology.py:192-217). `vmap` over a 0-d `volume_stack` raises `ValueError`. -/
def muILaw (fn : MathFns K) (pr : MuIParams K) (reset : Bool) : Law K dim (LawState K) :=
  { update := fun s ls _ =>
      match ls with
      | .density r =>
        let σ := fun p => muIStress fn pr (s.L p) (s.mass p) (s.volume p) (r p.val)
        if s.volScalar then .error .valueError else .ok ({ s with stress := σ }, ls)
      | _ => .error .attributeError
    requiresFReset := reset }

/-- `DruckerPrager.update` (druckerprager.py:88-116). -/
def dpLaw (fn : MathFns K) (pr : DPParams K) (reset : Bool) : Law K dim (LawState K) :=
  { update := fun s ls dt =>
      match ls with
      | .dp epsE epsP p0 =>
        let r := fun p => dpUpdate fn pr (s.L p) (epsE p.val) (epsP p.val) (p0 p.val) (s.density p) dt
        .ok ({ s with stress := fun p => (r p).stress },
          .dp (ofFin 0 fun p => (r p).epsE) (ofFin 0 fun p => (r p).epsP) p0)
      | _ => .error .attributeError
    requiresFReset := reset }

/-- `ModifiedCamClay.update` (modifiedcamclay.py:345-372). -/
def mccLaw (fn : MathFns K) (ops : NewtonOps K) (pr : MCCParams K) (reset : Bool) :
    Law K dim (LawState K) :=
  { update := fun s ls dt =>
      match ls with
      | .mcc pc (some ref) epsE =>
        let r := fun p => mccUpdate fn ops pr (s.L p) (epsE p.val) (s.stress p) (pc p.val) (ref p.val)
          (pr.rhoP / s.density p) dt
        .ok ({ s with stress := fun p => (r p).stress },
          .mcc (ofFin 0 fun p => (r p).pc) (some ref) (ofFin 0 fun p => (r p).epsE))
      | .mcc _ none _ => .error .typeError
      | _ => .error .attributeError
    requiresFReset := reset }

end

/-- The laws shipped with the package. -/
inductive LibLaw {K : Type*} [Field K] [LinearOrder K] {dim : ℕ} : Law K dim (LawState K) → Prop
  | elastic (E nu reset) : LibLaw (elasticLaw E nu reset)
  | fluid (fn pr reset) : LibLaw (fluidLaw fn pr reset)
  | muI (fn pr reset) : LibLaw (muILaw fn pr reset)
  | dp (fn pr reset) : LibLaw (dpLaw fn pr reset)
  | mcc (fn ops pr reset) : LibLaw (mccLaw fn ops pr reset)

end Hydrax
