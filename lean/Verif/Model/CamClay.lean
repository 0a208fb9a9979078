import Verif.Model.Laws

/-!
# Modified Cam-Clay

Model of `hydraxmpm/constitutive_laws/modifiedcamclay.py`. The Jacobian `jax.jacfwd` and the NaN test are
parameters (`NewtonOps`), so theorems hold for every value they may take.
-/

namespace Hydrax

section
variable {K : Type*} [Field K] [LinearOrder K]

/-- Parameters of `ModifiedCamClay` (modifiedcamclay.py:127-148). -/
structure MCCParams (K : Type*) where
  nu : K
  M : K
  lam : K
  kap : K
  N : K
  pRef : K
  KMin : Option K
  KMax : Option K
  pMin : K
  rhoP : K

/-- `_cp` (modifiedcamclay.py:193). -/
def MCCParams.cp (pr : MCCParams K) : K := pr.lam - pr.kap

/-- `yield_function` (modifiedcamclay.py:48-49). -/
def mccYield (p pc q M : K) : K := q * q / (M * M) + p * p - pc * p

/-- `get_pressure_mcc` (modifiedcamclay.py:52-54). -/
def mccPressure (fn : MathFns K) (de kap pPrev : K) : K := pPrev * fn.exp (de / kap)

/-- `get_nc_pressure_mcc` (modifiedcamclay.py:57-62). -/
def mccNcPressure (fn : MathFns K) (de cp pcPrev : K) : K := pcPrev * fn.exp (de / cp)

/-- `get_s` (modifiedcamclay.py:65-67). -/
def mccS (de : Mat3 K) (G : K) (sPrev : Mat3 K) : Mat3 K := (2 * G) • de + sPrev

/-- `jnp.clip` with optional bounds: lower bound first, then upper. -/
def clipOpt (lo hi : Option K) (x : K) : K :=
  let y := match lo with
    | some a => max x a
    | none => x
  match hi with
  | some b => min y b
  | none => y

/-- `get_K` (modifiedcamclay.py:70-75). -/
def mccK (kap p : K) (lo hi : Option K) : K := clipOpt lo hi (1 / kap * max p 1)

/-- `get_G` (modifiedcamclay.py:78-81). -/
def mccG (nu k : K) : K := 3 * (1 - 2 * nu) / (2 * (1 + nu)) * k

/-- `get_v_ncl` (modifiedcamclay.py:84-86). -/
def vNcl (fn : MathFns K) (pc pRef N lam : K) : K := N * fn.pow (pRef / pc) lam

/-- `get_v_csl` (modifiedcamclay.py:89-95). -/
def vCsl (fn : MathFns K) (p pRef N lam kap : K) : K :=
  N * fn.pow 2 (kap - lam) * fn.pow (pRef / p) lam

/-- `get_v_f_kappa` (modifiedcamclay.py:97-99). -/
def vKappa (fn : MathFns K) (pc p kap : K) : K := fn.pow (pc / p) kap

/-- `get_v_sl` (modifiedcamclay.py:102-106). -/
def vSl (fn : MathFns K) (pc p pRef N lam kap : K) : K := vNcl fn pc pRef N lam * vKappa fn pc p kap

/-- `get_qp_ys` (modifiedcamclay.py:109-110). -/
def qpYs (fn : MathFns K) (pc p M : K) : K := M * fn.sqrt (pc / p - 1)

/-- Result of `create_state_from_ocr` for one point. -/
structure MCCInit (K : Type*) where
  pc : K
  stress : Mat3 K
  density : K

/-- `create_state_from_ocr` (modifiedcamclay.py:198-258) for one point. -/
def mccFromOcr (fn : MathFns K) (pr : MCCParams K) (p ocr : K) (q : Option K) : MCCInit K :=
  let pc := p * ocr
  let v := vSl fn pc p pr.pRef pr.N pr.lam pr.kap
  let qq := match q with
    | none => 0
    | some q =>
      let inp := q / p
      let ys := qpYs fn pc p pr.M
      let yf := |inp - ys|
      (if yf > 0 then ys else inp) * p
  { pc := pc, stress := triaxialStress p qq, density := pr.rhoP / v }

/-- `create_state_from_stress` (modifiedcamclay.py:260-289) for one point: `(p_c, density)`. -/
def mccFromStress (fn : MathFns K) (pr : MCCParams K) (p q : K) : K × K :=
  let qp := q / p
  let pc := p * ((qp / pr.M) ^ 2 + 1)
  (pc, pr.rhoP / vSl fn pc p pr.pRef pr.N pr.lam pr.kap)

/-- `create_state_from_density` (modifiedcamclay.py:291-330) for one point: `(p_c, specific volume)`. -/
def mccFromDensity (fn : MathFns K) (pr : MCCParams K) (p rho : K) : K × K :=
  let v := pr.rhoP / rho
  (fn.pow (pr.N * fn.pow pr.pRef pr.lam / (v * fn.pow p pr.kap)) (1 / (pr.lam - pr.kap)), v)

/-- `create_state` (modifiedcamclay.py:332-343): `jnp.full((n, 1.0))` lacks its fill value. -/
def mccCreate {dim n : ℕ} (_s : MPState K dim n) : Except PyErr (MCCInit K) := .error .typeError

/-- What is not computed by the model in the Newton loop: `jax.jacfwd` and the NaN/inf test
(modifiedcamclay.py:501, 517). -/
structure NewtonOps (K : Type*) where
  jac : ((Fin 2 → K) → Fin 2 → K) → (Fin 2 → K) → Matrix (Fin 2) (Fin 2) K
  bad : (Fin 2 → K) → Bool

/-- Quantities shared by the branches (modifiedcamclay.py:389-430). -/
structure MCCTrial (K : Type*) where
  deps : Mat3 K
  epsERot : Mat3 K
  p0 : K
  s0 : Mat3 K
  pPrev : K
  deV : K
  pTr : K
  KTr : K
  sTr : Mat3 K
  qTr : K
  yf : K

/-- Elastic predictor (modifiedcamclay.py:386-431). -/
def mccTrial (fn : MathFns K) (pr : MCCParams K) (L epsE σ : Mat3 K) (pcPrev : K) (σref : Mat3 K)
    (dt : K) : MCCTrial K :=
  let D := symTensor L
  let W := spinTensor L
  let deps := dt • D
  let σr := jaumann σ W dt
  let p0 := pressureOf σref
  let pPrev := max (pressureOf σr) pr.pMin
  let deV := volStrain deps
  let pTr := mccPressure fn deV pr.kap pPrev
  let KTr := mccK pr.kap (max pTr pr.pMin) pr.KMin pr.KMax
  let sPrev := devStressP σr pPrev
  let sTr := mccS (devStrainV deps deV) (mccG pr.nu KTr) sPrev
  let qTr := qVmDev fn sTr
  { deps := deps, epsERot := jaumann epsE W dt, p0 := p0, s0 := devStressP σref p0, pPrev := pPrev,
    deV := deV, pTr := pTr, KTr := KTr, sTr := sTr, qTr := qTr, yf := mccYield pTr pcPrev qTr pr.M }

/-- Result of one update: stress, elastic strain, preconsolidation pressure. -/
structure MCCResult (K : Type*) where
  stress : Mat3 K
  epsE : Mat3 K
  pc : K

/-- `elastic_update` (modifiedcamclay.py:434-438). -/
def mccElastic (t : MCCTrial K) (pcPrev : K) : MCCResult K :=
  { stress := t.sTr + isoT t.pTr, epsE := t.epsERot + t.deps, pc := pcPrev }

/-- The auxiliary values computed by `residuals` (modifiedcamclay.py:454-488). -/
structure MCCAux (K : Type*) where
  res : Fin 2 → K
  p : K
  s : Mat3 K
  G : K
  Kb : K

/-- `residuals` (modifiedcamclay.py:454-488). `safe` is `is_ep`, used in the masks (441-452). -/
def mccResiduals (fn : MathFns K) (pr : MCCParams K) (t : MCCTrial K) (pcPrev : K) (x : Fin 2 → K) :
    MCCAux K :=
  let isEp := t.yf > 0
  let deV := if isEp then t.deV else 0
  let pPrev := if isEp then t.pPrev else 1
  let pcP := if isEp then pcPrev else 2
  let qTr := max (if isEp then t.qTr else 1) (1 / 10 ^ 6)
  let uPrev := fn.log pcP
  let pm := x 0
  let pcN := fn.exp (x 1)
  let dpv := pr.cp * (x 1 - uPrev)
  let p := mccPressure fn (deV - dpv) pr.kap pPrev
  let Kb := mccK pr.kap p pr.KMin pr.KMax
  let G := mccG pr.nu Kb
  let factor := 1 / (1 + 6 * G * pm)
  let q := qTr * factor
  let fr := pm * (2 * p - pcN) * pr.M ^ 2
  { res := ![mccYield p pcN q pr.M / t.KTr, (fr - dpv) / 1]
    p := p, s := factor • t.sTr, G := G, Kb := Kb }

/-- `step_fn` (modifiedcamclay.py:492-524): damped Newton step, NaN guard, clamping at zero. -/
def mccNewtonStep (ops : NewtonOps K) (R : (Fin 2 → K) → Fin 2 → K) (x : Fin 2 → K) : Fin 2 → K :=
  let J := ops.jac R x
  let dx := fun i => -((inv2 (10 ^ 6) J).mulVec (R x) i)
  let xn := fun i => x i + 8 / 10 * dx i
  let xg := if ops.bad xn then x else xn
  fun i => max (xg i) 0

/-- `lax.scan(step_fn, x_init, length=n)` (modifiedcamclay.py:526-529). -/
def mccNewton (ops : NewtonOps K) (R : (Fin 2 → K) → Fin 2 → K) : ℕ → (Fin 2 → K) → Fin 2 → K
  | 0, x => x
  | n + 1, x => mccNewton ops R n (mccNewtonStep ops R x)

/-- `pull_to_ys` (modifiedcamclay.py:440-554). -/
def mccPlastic (fn : MathFns K) (ops : NewtonOps K) (pr : MCCParams K) (t : MCCTrial K) (pcPrev : K) :
    MCCResult K :=
  let pPrev := if t.yf > 0 then t.pPrev else 1
  let pcP := if t.yf > 0 then pcPrev else 2
  let R := fun x => (mccResiduals fn pr t pcPrev x).res
  let x := mccNewton ops R 10 ![0, fn.log pcP]
  let aux := mccResiduals fn pr t pcPrev x
  let pcN := fn.exp (x 1)
  let s : Mat3 K := fun i j => if aux.s i j ≠ 0 then aux.s i j else t.sTr i j
  let p := if aux.p ≠ 0 then aux.p else pPrev
  let pc := if pcN ≠ 0 then pcN else pcP
  let eV := (p - t.p0) / aux.Kb
  let eD := (1 / (2 * aux.G)) • (s - t.s0)
  { stress := s + isoT p, epsE := eD + isoT (1 / 3 * eV), pc := pc }

/-- `_update_stress` (modifiedcamclay.py:375-562). -/
def mccUpdate (fn : MathFns K) (ops : NewtonOps K) (pr : MCCParams K) (L epsE σ : Mat3 K) (pcPrev : K)
    (σref : Mat3 K) (v dt : K) : MCCResult K :=
  let t := mccTrial fn pr L epsE σ pcPrev σref dt
  if v ≤ pr.N * (999999 / 1000000) then
    if t.yf > 0 then mccPlastic fn ops pr t pcPrev else mccElastic t pcPrev
  else { stress := 0, epsE := t.epsERot, pc := pcPrev }

end
end Hydrax
