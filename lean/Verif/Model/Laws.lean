import Verif.Model.Step
import Verif.Model.MathHelpers
import Mathlib.Data.Finset.Lattice.Fold
import Mathlib.Data.Fintype.Basic

/-!
# Constitutive laws

Model of `hydraxmpm/constitutive_laws/` (linear elastic, Newtonian fluid, mu(I), Drucker-Prager; modified
Cam-Clay is in `Verif.Model.CamClay`). Law-state arrays are functions of the point number; that they have
the length of the body is assumed (JAX raises otherwise). The updates of one point are the functions
`*Stress`; `vmap` over the points is in the `Law` records of `Verif.Model.LawTable`.
-/

namespace Hydrax

section
variable {K : Type*} [Field K] [LinearOrder K]

/-- The 3×3 identity times a scalar, `c * jnp.eye(3)`. -/
def isoT (c : K) : Mat3 K := c • (1 : Mat3 K)

/-! ### Linear elasticity (linearelastic.py) -/

/-- `get_bulk_modulus` (linearelastic.py:22-23). -/
def bulkModulus (E nu : K) : K := E / (3 * (1 - 2 * nu))

/-- `get_shear_modulus` (linearelastic.py:26-27). -/
def shearModulus (E nu : K) : K := E / (2 * (1 + nu))

/-- `get_lame_modulus` (linearelastic.py:30-31). -/
def lameModulus (E nu : K) : K := E * nu / ((1 + nu) * (1 - 2 * nu))

/-- `LinearElasticLaw._update_stress` (linearelastic.py:100-114). -/
def elasticStress (E nu : K) (L σ : Mat3 K) (dt : K) : Mat3 K :=
  let depsDt := (1 / 2 : K) • (L + L.transpose)
  let deps := dt • depsDt
  σ + isoT (lameModulus E nu * deps.trace) + (2 * shearModulus E nu) • deps

/-- `LinearElasticLaw.create_state` (linearelastic.py:82-98): the stored reference stress; `none` is
Python's `None`. -/
def elasticCreate {n : ℕ} (mpStress stressRef : Option (Fin n → Mat3 K)) (haveDensity : Bool) :
    Option (Fin n → Mat3 K) :=
  match mpStress with
  | some s => some s
  | none => if haveDensity then some fun _ => 0 else stressRef

/-- `jnp.max` over the points; `ValueError` for an empty array. -/
def maxOver {n : ℕ} (f : Fin n → K) : Except PyErr K :=
  if h : 0 < n then
    .ok (Finset.univ.sup' (⟨⟨0, h⟩, Finset.mem_univ _⟩ : (Finset.univ : Finset (Fin n)).Nonempty) f)
  else .error .valueError

/-- The critical time step for a given wave speed per point (linearelastic.py:145-152,
newtonfluid.py:160-171, mu_i_rheology.py:226-233). -/
def dtCrit (fn : MathFns K) {dim n : ℕ} (c : Fin n → K) (vel : Fin n → Fin dim → K) (cell alpha : K) :
    Except PyErr K :=
  andThen (maxOver fun p => c p + fn.sqrt (∑ a, vel p a ^ 2)) fun m =>
    .ok (alpha * cell / (m + 1 / 10 ^ 9))

/-- `LinearElasticLaw.get_dt_crit` (linearelastic.py:130-152). -/
def elasticDtCrit (fn : MathFns K) (E nu : K) {dim n : ℕ} (s : MPState K dim n) (cell alpha : K) :
    Except PyErr K :=
  dtCrit fn (fun p => fn.sqrt ((bulkModulus E nu + 4 / 3 * shearModulus E nu) /
    (s.mass p / s.volume p))) s.velocity cell alpha

/-! ### Newtonian fluid (newtonfluid.py) -/

/-- Parameters of `NewtonFluid` (newtonfluid.py:34-36). -/
structure FluidParams (K : Type*) where
  bulk : K
  viscosity : K
  beta : K

/-- Reference density from density and pressure (newtonfluid.py:57-72). -/
def fluidRefDensity (fn : MathFns K) (pr : FluidParams K) (rho p : K) : K :=
  rho / fn.pow (p / pr.bulk + 1) (1 / pr.beta)

/-- `NewtonFluid.create_state` (newtonfluid.py:74-86) passes the pressures positionally as
`density_stack` and `density_stack` again by keyword. -/
def fluidCreate {dim n : ℕ} (_s : MPState K dim n) : Except PyErr (Fin n → K) := .error .typeError

/-- Equation of state with clipping (newtonfluid.py:106-119). -/
def fluidPressure (fn : MathFns K) (pr : FluidParams K) (rho rhoRef : K) : K :=
  let ratio := max (rho / rhoRef) (1 / 10 ^ 6)
  max (pr.bulk * (fn.pow ratio pr.beta - 1)) 0

/-- `NewtonFluid._update_stress` (newtonfluid.py:90-126). -/
def fluidStress (fn : MathFns K) (pr : FluidParams K) (L : Mat3 K) (mass volume rhoRef : K) : Mat3 K :=
  let depsDt := (1 / 2 : K) • (L + L.transpose)
  let dev := depsDt - (1 / 3 * depsDt.trace) • (1 : Mat3 K)
  let p := fluidPressure fn pr (mass / volume) rhoRef
  isoT (-p) + (2 * pr.viscosity) • dev

/-- `NewtonFluid.get_dt_crit` (newtonfluid.py:154-171). -/
def fluidDtCrit (fn : MathFns K) (pr : FluidParams K) {dim n : ℕ} (s : MPState K dim n)
    (cell alpha : K) : Except PyErr K :=
  dtCrit fn (fun p => fn.sqrt (pr.bulk * pr.beta / (s.mass p / s.volume p))) s.velocity cell alpha

/-! ### mu(I) rheology (mu_i_rheology.py) -/

/-- Parameters of `MuI_LC` (mu_i_rheology.py:46-59). -/
structure MuIParams (K : Type*) where
  muS : K
  muD : K
  I0 : K
  bulk : K
  rhoP : K
  dP : K
  alpha : K
  pMin : K

/-- Reference density (mu_i_rheology.py:101-119). -/
def muIRefDensity (pr : MuIParams K) (rho p : K) : K := rho / (p / pr.bulk + 1)

/-- `MuI_LC.create_state` (mu_i_rheology.py:121-132). -/
def muICreate (pr : MuIParams K) {dim n : ℕ} (s : MPState K dim n) : Fin n → K :=
  fun p => muIRefDensity pr (s.mass p / s.volume0 p) (s.pressure p)

/-- Shear rate `sqrt(2 e:e)` of the deviatoric strain rate (mu_i_rheology.py:151). -/
def shearRate (fn : MathFns K) (dev : Mat3 K) : K := fn.sqrt (2 * dcontr dev dev)

/-- Total viscosity (mu_i_rheology.py:165-178). -/
def muIViscosity (fn : MathFns K) (pr : MuIParams K) (pSafe gd : K) : K :=
  let etaS := pr.muS * pSafe / fn.sqrt (gd ^ 2 + pr.alpha ^ 2)
  let deltaMu := pr.muD - pr.muS
  let pconf := pr.I0 * fn.sqrt (pSafe / pr.rhoP)
  let etaD := pr.dP * pSafe * deltaMu / (pconf + pr.dP * gd)
  etaS + etaD

/-- `MuI_LC._update_stress` (mu_i_rheology.py:134-190). -/
def muIStress (fn : MathFns K) (pr : MuIParams K) (L : Mat3 K) (mass volume rhoRef : K) : Mat3 K :=
  let depsDt := (1 / 2 : K) • (L + L.transpose)
  let dev := depsDt - (depsDt.trace / 3) • (1 : Mat3 K)
  let gd := shearRate fn dev
  let ratio := mass / volume / rhoRef
  let p := pr.bulk * (ratio - 1)
  if ratio > 1 then
    let pSafe := max p pr.pMin
    isoT pSafe + muIViscosity fn pr pSafe gd • dev
  else 0

/-- `MuI_LC.get_dt_crit` (mu_i_rheology.py:219-233). -/
def muIDtCrit (fn : MathFns K) (pr : MuIParams K) {dim n : ℕ} (s : MPState K dim n)
    (cell alpha : K) : Except PyErr K :=
  dtCrit fn (fun p => fn.sqrt (pr.bulk / (s.mass p / s.volume p))) s.velocity cell alpha

/-! ### Drucker-Prager (druckerprager.py) -/

/-- Parameters of `DruckerPrager` (druckerprager.py:42-49). -/
structure DPParams (K : Type*) where
  bulk : K
  shear : K
  mu1 : K
  mu2 : K
  c0 : K
  mu1Hat : K
  H : K
  rho0 : K

/-- `DruckerPrager.__init__` (druckerprager.py:51-73). -/
def DPParams.mk' (bulk nu mu1 mu2 c0 mu1Hat H rho0 : K) : DPParams K :=
  let E := 3 * bulk * (1 - 2 * nu)
  { bulk := bulk, shear := E / (2 * (1 + nu)), mu1 := mu1, mu2 := mu2, c0 := c0, mu1Hat := mu1Hat,
    H := H, rho0 := rho0 }

/-- Result of one update: stress, elastic strain, accumulated plastic strain. -/
structure DPResult (K : Type*) where
  stress : Mat3 K
  epsE : Mat3 K
  epsP : K

/-- Trial quantities (druckerprager.py:128-148). -/
structure DPTrial (K : Type*) where
  epsETr : Mat3 K
  pTr : K
  sTr : Mat3 K
  sqrtJ2 : K
  yf : K

/-- Elastic predictor (druckerprager.py:128-148). -/
def dpTrial (fn : MathFns K) (pr : DPParams K) (L epsE : Mat3 K) (epsP p0 dt : K) : DPTrial K :=
  let D := symTensor L
  let W := spinTensor L
  let deps := dt • D
  let epsETr := jaumann epsE W dt + deps
  let volE := volStrain epsETr
  let devE := devStrainV epsETr volE
  let pTr := pr.bulk * volE + p0
  let sTr := (2 * pr.shear) • devE
  let sqrtJ2 := fn.sqrt (max (J2dev sTr) (1 / 10 ^ 12))
  let c := pr.c0 + pr.H * epsP
  { epsETr := epsETr, pTr := pTr, sTr := sTr, sqrtJ2 := sqrtJ2
    yf := sqrtJ2 - pr.mu1 * pTr - pr.mu2 * c }

/-- `elastic_update` (druckerprager.py:152-154). -/
def dpElastic (t : DPTrial K) (epsP : K) : DPResult K :=
  { stress := t.sTr + isoT t.pTr, epsE := t.epsETr, epsP := epsP }

/-- Plastic multiplier of the cone return (druckerprager.py:160). -/
def dpMulti (pr : DPParams K) (t : DPTrial K) : K :=
  t.yf / (pr.shear + pr.bulk * pr.mu1 * pr.mu1Hat + pr.H * pr.mu2 * pr.mu2)

/-- `pull_to_cone` (druckerprager.py:162-178). -/
def dpCone (pr : DPParams K) (t : DPTrial K) (epsP p0 : K) : DPResult K :=
  let pm := dpMulti pr t
  let pCone := t.pTr - pr.bulk * pm * pr.mu1Hat
  let sCone := (1 - pr.shear * pm / t.sqrtJ2) • t.sTr
  let eV := (pCone - p0) / pr.bulk
  let eD := (1 / (2 * pr.shear)) • sCone
  { stress := sCone + isoT pCone
    epsE := eD + isoT (1 / 3 * eV)
    epsP := epsP + pr.mu2 * pm }

/-- `pull_to_apex` (druckerprager.py:180-196). -/
def dpApex (pr : DPParams K) (t : DPTrial K) (epsP p0 : K) : DPResult K :=
  let alpha := pr.mu2 / max pr.mu1 (1 / 10 ^ 8)
  let depsPV := (pr.mu1 * t.pTr + pr.mu2 * (pr.c0 + pr.H * epsP)) /
    max (pr.bulk * pr.mu1 - pr.H * pr.mu2 * alpha) (1 / 10 ^ 12)
  let pApex := t.pTr - pr.bulk * depsPV
  let eV := (pApex - p0) / pr.bulk
  { stress := isoT pApex, epsE := isoT (1 / 3 * eV), epsP := epsP + alpha * depsPV }

/-- `DruckerPrager._update_stress` (druckerprager.py:118-207). -/
def dpUpdate (fn : MathFns K) (pr : DPParams K) (L epsE : Mat3 K) (epsP p0 rho dt : K) : DPResult K :=
  let t := dpTrial fn pr L epsE epsP p0 dt
  if rho ≥ pr.rho0 then
    if t.yf > 0 then
      if t.sqrtJ2 - pr.shear * dpMulti pr t < 0 then dpApex pr t epsP p0
      else dpCone pr t epsP p0
    else dpElastic t epsP
  else { stress := 0, epsE := 0, epsP := epsP }

/-- `DruckerPrager.get_dt_crit` (druckerprager.py:209-218) reads `mp_state.rho_stack`, which
`MaterialPointState` does not have. -/
def dpDtCrit {dim n : ℕ} (_s : MPState K dim n) : Except PyErr K := .error .attributeError

end
end Hydrax
