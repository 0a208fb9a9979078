import Verif.Model.CamClay
import Verif.Model.Sdf

/-!
# Unified elasto-plastic-inertial Cam-Clay

Model of `projects/unified_elasto_plastic_inertial_mcc/UEPI_MCC.py` and of `SIPConfig.gamma` (`sip_setup.py`). The Jacobian
`jax.jacfwd` and the NaN test are parameters (`NewtonOps`), as in `Model/CamClay`. The floats `1e-22` and `1e20` are exact
numbers. The rest of the project directory (plots, loading programmes) is not modelled.
-/

namespace Hydrax

section
variable {K : Type*} [Field K] [LinearOrder K]

/-! ### Helper functions -/

/-- `get_K` (UEPI_MCC.py:15-18). -/
def uK (kap p : K) : K := p / kap

/-- `get_G` (UEPI_MCC.py:21-24). -/
def uG (nu k : K) : K := 3 * (1 - 2 * nu) / (2 * (1 + nu)) * k

/-- `get_xi` (UEPI_MCC.py:27-29). -/
def uXi (ps p : K) : K := ps / p

/-- `get_M_xi` (UEPI_MCC.py:32-34). -/
def uMXi (fn : MathFns K) (xi : K) : K := fn.sqrt (2 * xi - 1)

/-- `get_M_xi_2` (UEPI_MCC.py:37-38). -/
def uMXi2 (xi : K) : K := 2 * xi - 1

/-- `get_mcc_M` (UEPI_MCC.py:41-43). -/
def uMccM (fn : MathFns K) (xi Mcsl : K) : K := Mcsl * uMXi fn xi

/-- `get_v_ncl` (UEPI_MCC.py:46-48). -/
def uVNcl (fn : MathFns K) (pc pRef N lam : K) : K := N * fn.pow (pRef / pc) lam

/-- `get_v_csl` (UEPI_MCC.py:51-53). -/
def uVCsl (fn : MathFns K) (ps pRef gamma lam : K) : K := gamma * fn.pow (pRef / ps) lam

/-- `get_v_xi` (UEPI_MCC.py:56-58). -/
def uVXi (fn : MathFns K) (xi kap : K) : K := fn.pow xi kap

/-- `get_mcc_sl` (UEPI_MCC.py:61-65). -/
def uMccSl (fn : MathFns K) (xi ps pRef gamma lam kap : K) : K := uVCsl fn ps pRef gamma lam * uVXi fn xi kap

/-- `convert_gamma_N` (UEPI_MCC.py:68-70). -/
def uConvertGammaN (fn : MathFns K) (gamma lam kap : K) : K := gamma * fn.pow 2 (-(kap - lam))

/-- `get_deps_v_p` (UEPI_MCC.py:73-75). -/
def uDepsVP (p xi pm : K) : K := pm * (2 * (p - p * xi) / (p * xi) ^ 2)

/-- `get_deps_s_p` (UEPI_MCC.py:78-80). -/
def uDepsSP (p xi q M pm : K) : K := pm * (2 * q / (M * p * xi) ^ 2)

/-- `get_plastic_inertial_number` (UEPI_MCC.py:88-91). -/
def uIp (fn : MathFns K) (p rate d rhoP : K) : K := rate * d * fn.sqrt (rhoP / max p (1 / 10 ^ 12))

/-- `get_M_I` (UEPI_MCC.py:99-101). -/
def uMI (I IM Mcsl Minf : K) : K := 1 + I * ((Minf / Mcsl - 1) / (IM + I))

/-- `get_M_I_2` (UEPI_MCC.py:104-105). -/
def uMI2 (I IM Mcsl Minf : K) : K := (1 + I * ((Minf / Mcsl - 1) / (IM + I))) ^ 2

/-- `get_iss_M` (UEPI_MCC.py:108-110). -/
def uIssM (I IM Mcsl Minf : K) : K := Mcsl * uMI I IM Mcsl Minf

/-- `get_v_I` (UEPI_MCC.py:113-117). -/
def uVI (fn : MathFns K) (I Iv : K) : K := fn.exp (I / Iv)

/-- `get_iss_v` (UEPI_MCC.py:120-123). -/
def uIssV (fn : MathFns K) (vcsl I Iv : K) : K := vcsl * uVI fn I Iv

/-- `get_unified_M` (UEPI_MCC.py:131-134). -/
def uUnifiedM (fn : MathFns K) (xi I Mcsl Minf IM : K) : K := Mcsl * uMXi fn xi * uMI I IM Mcsl Minf

/-- `get_unified_M_2` (UEPI_MCC.py:137-140). -/
def uUnifiedM2 (xi I Mcsl Minf IM : K) : K := Mcsl ^ 2 * uMXi2 xi * uMI2 I IM Mcsl Minf

/-- `get_unified_iys` (UEPI_MCC.py:143-144). -/
def uIys (p q Mcsl MXi2 MI2 : K) : K := (q / (p * Mcsl + 1 / 10 ^ 12)) ^ 2 - MXi2 * MI2

/-- `get_unified_isl` (UEPI_MCC.py:147-151). -/
def uIsl (fn : MathFns K) (xi p pRef gamma lam kap : K) : K := uVCsl fn (xi * p) pRef gamma lam * uVXi fn xi kap

/-- `get_deps_v_p_hardening` (UEPI_MCC.py:154-156). -/
def uHardening (fn : MathFns K) (ps psPrev dI Iv lam kap : K) : K :=
  (lam - kap) * fn.log (max (ps / psPrev) (1 / 10 ^ 12)) - dI / Iv

/-- `get_unified_iys_res` (UEPI_MCC.py:163-167). -/
def uYield (p ps q Mcsl MI : K) : K :=
  let Miss := Mcsl * MI
  let pc := ps * 2
  q * q / (Miss * Miss) + p * p - pc * p

/-! ### Parameters -/

/-- Attributes of `UEPI_MCC` (UEPI_MCC.py:179-192). -/
structure UepiParams (K : Type*) where
  pRef : K
  nu : K
  lam : K
  kap : K
  Mcsl : K
  gamma : K
  Minf : K
  Iv : K
  IM : K
  rhoP : K
  d : K

/-- Arguments of the constructor (UEPI_MCC.py:194-210) with their defaults. -/
structure UepiArgs (K : Type*) [Field K] where
  nu : K
  Mcsl : K
  lam : K
  kap : K
  d : K := 1 / 1000
  Iv : K := 10 ^ 20
  IM : K := 10 ^ 20
  Minf : Option K := none
  gamma : Option K := none
  N : Option K := none
  pRef : K := 1000
  rhoP : K := 2650

/-- `UEPI_MCC.__init__` (UEPI_MCC.py:211-226). Without `gamma` and `N` it multiplies `None`. -/
def uepiNew (fn : MathFns K) (a : UepiArgs K) : Except PyErr (UepiParams K) :=
  let mk := fun gamma =>
    { pRef := a.pRef, nu := a.nu, lam := a.lam, kap := a.kap, Mcsl := a.Mcsl, gamma := gamma
      Minf := a.Minf.getD (a.Mcsl * (1 + 1 / 10 ^ 12)), Iv := a.Iv, IM := a.IM, rhoP := a.rhoP, d := a.d }
  match a.gamma, a.N with
  | some g, _ => .ok (mk g)
  | none, some N => .ok (mk (N * fn.pow 2 (a.kap - a.lam)))
  | none, none => .error .typeError

/-- The property `N` (UEPI_MCC.py:228-230). -/
def UepiParams.N (fn : MathFns K) (pr : UepiParams K) : K := pr.gamma * fn.pow 2 (-(pr.kap - pr.lam))

/-- `SIPConfig.gamma` (sip_setup.py:38-40). -/
def sipGamma (fn : MathFns K) (N lam kap : K) : K := N * fn.pow 2 (-(lam - kap))

/-! ### States -/

/-- State of one point: stress and `UEPI_MCCState` (UEPI_MCC.py:170-174) without the reference stress. -/
structure UepiState (K : Type*) where
  stress : Mat3 K
  epsE : Mat3 K
  ps : K
  I : K

/-- Result of `create_state_from_ocr` for one point. -/
structure UepiInit (K : Type*) where
  st : UepiState K
  stressRef : Mat3 K
  density : K

/-- `create_state_from_ocr` (UEPI_MCC.py:232-278) for one point. The argument `q_stack` is overwritten by zeros (265). -/
def uepiFromOcr (fn : MathFns K) (pr : UepiParams K) (p ocr : K) (_q : Option K) : UepiInit K :=
  let pc := p * ocr
  let ps := pc / 2
  let xi := uXi ps p
  let v := uMccSl fn xi ps pr.pRef pr.gamma pr.lam pr.kap
  let σ := triaxialStress p 0
  { st := { stress := σ, epsE := 0, ps := ps, I := 1 / 10 ^ 22 }, stressRef := σ, density := pr.rhoP / v }

/-- Elastic predictor (UEPI_MCC.py:324-366). -/
structure UepiTrial (K : Type*) where
  deps : Mat3 K
  epsERot : Mat3 K
  p0 : K
  s0 : Mat3 K
  pPrev : K
  deV : K
  pTr : K
  Kc : K
  Gc : K
  sTr : Mat3 K
  qTr : K
  yf : K

/-- Elastic predictor (UEPI_MCC.py:324-366). -/
def uepiTrial (fn : MathFns K) (pr : UepiParams K) (L : Mat3 K) (st : UepiState K) (σref : Mat3 K) (dt : K) : UepiTrial K :=
  let D := symTensor L
  let W := spinTensor L
  let deps := dt • D
  let σr := jaumann st.stress W dt
  let p0 := pressureOf σref
  let pPrev := pressureOf σr
  let sPrev := devStressP σr pPrev
  let deV := volStrain deps
  let pTr := pPrev * fn.exp (deV / pr.kap)
  let pAvg := 1 / 2 * (pPrev + pTr)
  let Kc := uK pr.kap pAvg
  let Gc := uG pr.nu Kc
  let sTr := (2 * Gc) • devStrainV deps deV + sPrev
  let qTr := qVmDev fn sTr
  { deps := deps, epsERot := jaumann st.epsE W dt, p0 := p0, s0 := devStressP σref p0, pPrev := pPrev, deV := deV, pTr := pTr,
    Kc := Kc, Gc := Gc, sTr := sTr, qTr := qTr, yf := uYield pTr st.ps qTr pr.Mcsl 1 }

/-- `elastic_update` (UEPI_MCC.py:372-376). -/
def uepiElastic (t : UepiTrial K) (st : UepiState K) : UepiState K :=
  { stress := t.sTr + isoT t.pTr, epsE := t.epsERot + t.deps, ps := st.ps, I := 1 / 10 ^ 22 }

/-- What `residuals` computes (UEPI_MCC.py:387-426). -/
structure UepiAux (K : Type*) where
  res : Fin 2 → K
  p : K
  factor : K
  I : K
  depsPV : K
  depsSP : K

/-- `residuals` (UEPI_MCC.py:378-426). -/
def uepiResiduals (fn : MathFns K) (pr : UepiParams K) (t : UepiTrial K) (st : UepiState K) (dt : K) (x : Fin 2 → K) : UepiAux K :=
  let pPrev := max t.pPrev 1
  let psPrev := max st.ps 1
  let qTr := max t.qTr (1 / 10 ^ 6)
  let uPrev := fn.log psPrev
  let pm := x 0
  let psN := fn.exp (x 1)
  let factor := 1 / (1 + 6 * t.Gc * pm)
  let q := qTr * factor
  let dsp := 2 * pm * q
  let I := uIp fn (max psN pr.pRef) (dsp / dt) pr.d pr.rhoP
  let dI := I - st.I
  let dpv := (pr.lam - pr.kap) * (x 1 - uPrev) - dI / pr.Iv
  let p := pPrev * fn.exp ((t.deV - dpv) / pr.kap)
  let fr := pm * (2 * (p - psN)) * pr.Mcsl ^ 2
  let MI := uMI I pr.IM pr.Mcsl pr.Minf
  { res := ![uYield p psN q pr.Mcsl MI, (fr - dpv) * 10 ^ 4], p := p, factor := factor, I := I, depsPV := dpv, depsSP := dsp }

/-- `step_fn` (UEPI_MCC.py:428-447). -/
def uepiNewtonStep (ops : NewtonOps K) (R : (Fin 2 → K) → Fin 2 → K) (x : Fin 2 → K) : Fin 2 → K :=
  let J := ops.jac R x
  let dx := fun i => -((inv2 (10 ^ 6) J).mulVec (R x) i)
  let dxc : Fin 2 → K := ![dx 0, clipK (-(1 / 10)) (1 / 10) (dx 1)]
  let xn := fun i => x i + 4 / 10 * dxc i
  let xg := if ops.bad xn then x else xn
  ![max (xg 0) 0, xg 1]

/-- `lax.scan(step_fn, x_init, None, length=n)` (UEPI_MCC.py:453). -/
def uepiNewton (ops : NewtonOps K) (R : (Fin 2 → K) → Fin 2 → K) : ℕ → (Fin 2 → K) → Fin 2 → K
  | 0, x => x
  | n + 1, x => uepiNewton ops R n (uepiNewtonStep ops R x)

/-- Unknowns at the end of the loop (UEPI_MCC.py:449-456). -/
def uepiFinal (fn : MathFns K) (ops : NewtonOps K) (pr : UepiParams K) (t : UepiTrial K) (st : UepiState K) (dt : K) : Fin 2 → K :=
  uepiNewton ops (fun x => (uepiResiduals fn pr t st dt x).res) 20 ![0, fn.log (max st.ps 1)]

/-- `pull_to_ys` (UEPI_MCC.py:378-471). -/
def uepiPlastic (fn : MathFns K) (ops : NewtonOps K) (pr : UepiParams K) (t : UepiTrial K) (st : UepiState K) (dt : K) : UepiState K :=
  let x := uepiFinal fn ops pr t st dt
  let aux := uepiResiduals fn pr t st dt x
  let s := aux.factor • t.sTr
  let eV := (aux.p - t.p0) / t.Kc
  let eD := (1 / (2 * t.Gc)) • (s - t.s0)
  { stress := s + isoT aux.p, epsE := eD + isoT (1 / 3 * eV), ps := fn.exp (x 1), I := aux.I }

/-- `_update_stress` (UEPI_MCC.py:309-476); the specific volume is not used. -/
def uepiUpdate (fn : MathFns K) (ops : NewtonOps K) (pr : UepiParams K) (σref L : Mat3 K) (dt : K) (st : UepiState K) : UepiState K :=
  let t := uepiTrial fn pr L st σref dt
  if t.yf > 0 then uepiPlastic fn ops pr t st dt else uepiElastic t st

/-- A sequence of updates with given velocity gradients and time steps. -/
def uepiRun (fn : MathFns K) (ops : NewtonOps K) (pr : UepiParams K) (σref : Mat3 K) : UepiState K → List (Mat3 K × K) → UepiState K
  | st, [] => st
  | st, h :: hs => uepiRun fn ops pr σref (uepiUpdate fn ops pr σref h.1 h.2 st) hs

end
end Hydrax
