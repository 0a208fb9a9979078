import Verif.Model.Figures
import Verif.Model.CamClay
import Verif.Model.MaterialPoints

/-!
The figure of the Cam-Clay triaxial example, `projects/mcc_trx/mcc.py`. Modelled are the three straight segments drawn into the
bilogarithmic `(p, v)` panel (121-141), the failure envelope of the `(p, q)` panel (96) and the coordinates of the recorded states
(93, 111-113). Left out are limits, colours, labels and the panels over strain.
-/

namespace Hydrax

variable {K : Type*} [Field K] [LinearOrder K]

/-- The line labelled "Normal Consolidation Line" over `x` in kPa (mcc.py:121-127). -/
def trxNcl (fn : MathFns K) (pr : MCCParams K) (x : K) : K :=
  logSegment fn 1 (vNcl fn 1000 pr.pRef pr.N pr.lam) 100 (vNcl fn 100000 pr.pRef pr.N pr.lam) x

/-- The line labelled "Critical State Line" over `x` in kPa (mcc.py:129-136). -/
def trxCsl (fn : MathFns K) (pr : MCCParams K) (x : K) : K :=
  logSegment fn 1 (vCsl fn 1000 pr.pRef pr.N pr.lam pr.kap) 100 (vCsl fn 100000 pr.pRef pr.N pr.lam pr.kap) x

/-- The line labelled "Swelling Line" over `x` in kPa, `pc` is `law_state.p_c_stack[0]` (mcc.py:138-141): the ends are drawn at
1 kPa and 10 kPa, the volumes are taken at 10 Pa and at `pc`. -/
def trxSl (fn : MathFns K) (pr : MCCParams K) (pc x : K) : K :=
  logSegment fn 1 (vSl fn 10000 10 pr.pRef pr.N pr.lam pr.kap) 10 (vSl fn 10000 pc pr.pRef pr.N pr.lam pr.kap) x

/-- The line labelled "Failure Envelope q=Mp" over `x` in kPa: the straight segment from `(0, 0)` to `(17, 17 M)` (mcc.py:96). -/
def trxEnvelope (M x : K) : K := 0 + (x - 0) / (17 - 0) * (M * 17 - 0)

/-- Coordinates of a recorded state in the `(p, v)` panel (mcc.py:111-113). -/
def trxMarker {dim : ℕ} (pr : MCCParams K) (s : MPState K dim 1) : K × K :=
  (pressureOf (s.stress 0) / 1000, pr.rhoP / s.density 0)

/-- Coordinates of a recorded state in the `(p, q)` panel (mcc.py:93). -/
def trxMarkerQ {dim : ℕ} (fn : MathFns K) (s : MPState K dim 1) : K × K :=
  (pressureOf (s.stress 0) / 1000, qVm fn (s.stress 0) / 1000)

/-- The initial state of the script: the law's state has the preconsolidation pressure `confine * ocr` (mcc.py:22, 27, 38-42). -/
def trxInit (fn : MathFns K) (pr : MCCParams K) : MCCInit K := mccFromOcr fn pr 10000 1 none

end Hydrax
