import Verif.Model.Uepi
import Verif.Model.MathHelpers

/-!
# The curves of the figures of the elasto-plastic-inertial clay

`projects/unified_elasto_plastic_inertial_mcc/`: `theory_ys_plot.py`, `theory_I_ys_plot.py`, `theory_sl_plot.py`, `theory_iss.py` draw the law,
`result_trx.py` with `TriaxialDashboard` of `plotting.py` draws element tests together with the lines they are expected to end on.

Not modelled: colours, labels, ticks, legends, limits of the axes and the finitely many sampling points of a curve (a curve is a
function of the pressure). Stresses are in Pa; the scripts divide both coordinates by 1000 for the axes.
-/

namespace Hydrax

variable {K : Type*} [Field K] [LinearOrder K]

/-- `get_ps_I` (UEPI_MCC.py:159-160). -/
def uPsI (fn : MathFns K) (ps I Iv : K) : K := ps * fn.exp (I / Iv)

/-- `q_M_stack` of theory_ys_plot.py:41-52. -/
def figYs (fn : MathFns K) (Mcsl ps p : K) : K := uMccM fn (uXi ps p) Mcsl * p

/-- `q_ri_stack` of theory_I_ys_plot.py:60-70. -/
def figRi (fn : MathFns K) (Mcsl ps p : K) : K := Mcsl * uMXi fn (uXi ps p) * p

/-- `q_ssf_stack` of theory_I_ys_plot.py:60-73. -/
def figSsf (fn : MathFns K) (Mcsl Minf IM I ps p : K) : K := Mcsl * uMXi fn (uXi ps p) * uMI I IM Mcsl Minf * p

/-- `q_ssd_stack` of theory_I_ys_plot.py:49, 61-76. -/
def figSsd (fn : MathFns K) (Mcsl Iv I ps p : K) : K := Mcsl * uMXi fn (uXi (uPsI fn ps I Iv) p) * p

/-- The arrows of theory_I_ys_plot.py:175-176, 223-224, 270-271 at the point `(p, q)` of a curve with state parameter `xi`. -/
def figArrow (p xi q Mcsl pm : K) : K × K := (uDepsVP p xi pm, uDepsSP p xi q Mcsl pm)

/-- The inertial number of an element test (result_trx.py:245): `rate` is `shear_strain_rate_stack`, `p` the pressure in Pa. -/
def figI (fn : MathFns K) (rate p d rhoP : K) : K := rate * d / fn.sqrt (p / rhoP)

/-- The straight lines through the origin, `[0, p_max]` against `[0, M p_max]`, of plotting.py:433-440 and 498-502. -/
def figLine (M pmax p : K) : K := M * pmax / pmax * p

/-- The yield surface at the end of a test (plotting.py:448-458): `p_s` is the last pressure. -/
def figIys (fn : MathFns K) (pr : UepiParams K) (pEnd I p : K) : K := uUnifiedM fn (pEnd / p) I pr.Mcsl pr.Minf pr.IM * p

/-- The initial yield surface (plotting.py:510-520). -/
def figInitYs (fn : MathFns K) (pr : UepiParams K) (ocr confine p : K) : K :=
  uUnifiedM fn (ocr * confine / 2 / p) 0 pr.Mcsl pr.Minf pr.IM * p

/-- Straight segment through two points on axes with logarithmic scales, which is how the lines of the `(p, v)` plot are drawn
(plotting.py:276 and 281 set the scales). -/
def logSegment (fn : MathFns K) (x0 y0 x1 y1 x : K) : K :=
  fn.exp (fn.log y0 + (fn.log x - fn.log x0) / (fn.log x1 - fn.log x0) * (fn.log y1 - fn.log y0))

/-- The steady state line of the `(p, v)` plot (plotting.py:471-481): the two ends are at 1 Pa and `pmax` Pa, `p_ref` is 1000 Pa. -/
def figIssV (fn : MathFns K) (pr : UepiParams K) (I pmax p : K) : K :=
  logSegment fn 1 (uIssV fn (uVCsl fn 1 1000 pr.gamma pr.lam) I pr.Iv) pmax (uIssV fn (uVCsl fn pmax 1000 pr.gamma pr.lam) I pr.Iv) p

/-- The normal compression line of the `(p, v)` plot (plotting.py:534-545). -/
def figNcl (fn : MathFns K) (N lam pmax p : K) : K :=
  logSegment fn 1 (uVNcl fn 1 1000 N lam) pmax (uVNcl fn pmax 1000 N lam) p

/-- `fit_ncl` of results_london_clay_iso.py:120: pressures in kPa, so `p_ref` is 1. -/
def isoNcl (fn : MathFns K) (p N lam : K) : K := uVNcl fn p 1 N lam

/-- Sum of squares that `curve_fit` minimises (results_london_clay_iso.py:122-128) over the points `(p, v)`. -/
def isoMisfit (fn : MathFns K) (data : List (K × K)) (N lam : K) : K :=
  (data.map fun d => (isoNcl fn d.1 N lam - d.2) ^ 2).sum

end Hydrax
