import Verif.Model.ElementTest

/-!
# Loading procedures of the element test scripts

Model of the loading procedures in `projects/unified_elasto_plastic_inertial_mcc/sip_setup.py`, of the preparation of the
measured record in `results_london_clay_trx.py` and of `projects/mcc_trx_inverse/mcc_trx_data_gen.py`. The laws are
parameters. Plots, HDF5 files, spreadsheets and the Latin hypercube sampler are not modelled.
-/

namespace Hydrax

section
variable {K : Type*} [Field K] {dim : ℕ} {LS : Type*}

/-- Time step of `NumericalProcedure` (sip_setup.py:82). -/
def sipDt (numSteps : ℕ) (totalTime : K) : K := totalTime / numSteps

/-- Axial rate of `NumericalProcedure` (sip_setup.py:83). -/
def sipRate (numSteps : ℕ) (totalStrain totalTime : K) : K := totalStrain / numSteps / sipDt numSteps totalTime

/-- The test of `NumericalProcedure` (sip_setup.py:71, 87-96). -/
def sipTest (law : Law K dim LS) (confine : K) (numSteps : ℕ) (totalStrain totalTime : K) (undrained : Bool) :
    TriaxialTest K dim LS :=
  { solver := { law := law }, confine := confine, isUndrained := undrained
    axialRate := .scalar (sipRate numSteps totalStrain totalTime), numSteps := numSteps
    dt := .scalar (sipDt numSteps totalTime), stride := 1, startStatic := true }

/-- `axial_rate_hr` (sip_setup.py:98). -/
def sipRateHr (numSteps : ℕ) (totalStrain totalTime : K) : K := sipRate numSteps totalStrain totalTime * 100 * 3600

/-- The duration that is printed (sip_setup.py:103). -/
def sipHours (totalTime : K) : K := totalTime / 3600

/-- Time steps of a measured record (results_london_clay_trx.py:50-54): differences of the times, `1e-16` for the first
row. Subtracting the first time does not change them. -/
def recordDt (times : List K) : List K :=
  (List.range times.length).map fun i => if i = 0 then 1 / 10 ^ 16 else times.getD i 0 - times.getD (i - 1) 0

/-- The test of `LondonClayProcedure` (sip_setup.py:137-158). -/
def londonTest (law : Law K dim LS) (confine : K) (undrained : Bool) (rates dts : List K) : TriaxialTest K dim LS :=
  { solver := { law := law }, confine := confine, isUndrained := undrained, axialRate := .array rates, numNewton := 20
    dt := .array dts, stride := 1 }

/-- The two entries of `DATASET_MODES` (mcc_trx_data_gen.py:122-125). -/
inductive DatasetMode
  | drained
  | undrained
  deriving DecidableEq

/-- `is_undrained` of a mode (mcc_trx_data_gen.py:122-125). -/
def DatasetMode.isUndrained : DatasetMode → Bool
  | .drained => false
  | .undrained => true

/-- `is_p_constant` of a mode (mcc_trx_data_gen.py:122-125). -/
def DatasetMode.isPConstant : DatasetMode → Bool
  | .drained => true
  | .undrained => false

/-- The test of one sample (mcc_trx_data_gen.py:58-65, 100-112). -/
def datasetTest (law : Law K dim LS) (confine : K) (m : DatasetMode) : TriaxialTest K dim LS :=
  { solver := { law := law }, confine := confine, isUndrained := m.isUndrained, isPConstant := m.isPConstant
    axialRate := .scalar (2 / 100), numSteps := 1000, dt := .scalar (1 / 100), stride := 1 }

variable [DecidableEq K]

/-- What is stored of one sample: axial strains in percent and stresses in kPa (mcc_trx_data_gen.py:114-120, 213-214). -/
def datasetRow (expm : Mat3 K → Mat3 K) (grad : (K → K) → K → K) (law : Law K dim LS) (confine : K) (m : DatasetMode)
    (mp : MPState K dim 1) (ls : LS) : Except PyErr (Option (List K) × List (Mat3 K)) :=
  andThen ((datasetTest law confine m).run expm grad mp ls) fun tr =>
    .ok ((datasetTest law confine m).axialStrain.map (List.map (· * 100)), tr.map fun r => (1 / 1000 : K) • r.1.stress 0)

end

section
variable {K : Type*} [Field K] [LinearOrder K]

/-- Rates of a measured record in percent per hour, as strain per second (results_london_clay_trx.py:57-59). -/
def recordRates (rates : List K) : List K := rates.map fun r => max r (-r) / 100 / 3600

end
end Hydrax
