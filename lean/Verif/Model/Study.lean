import Verif.Model.Scripts

/-!
# The parameter study of `projects/lorentz_collapse/collapse_run.py`

Simplification: the random numbers `jax.random.uniform` draws from [0, 1) are given (`u`); the arithmetic that brings them into
the bounds is modelled.
-/

namespace Hydrax

variable {K : Type*} [Field K] [LinearOrder K]

/-- `Mode` (collapse_run.py:23-28). -/
inductive StudyMode
  | varyAngle
  | varyFric
  | varyGeom
  deriving DecidableEq

/-- `LOWER_BOUNDS` (collapse_run.py:36-52): tilt_angle, friction_base, friction_hurst, friction_lambda_min, friction_lambda_max,
friction_rms_height, bump_hurst, bump_lambda_min, bump_lambda_max, bump_rms_height. -/
def studyLo : Fin 10 → K := ![0, 0, 2 / 10, 1 / 100, 5 / 10, 1 / 100, 2 / 10, 1 / 100, 5 / 10, 1 / 100]

/-- `UPPER_BOUNDS` (collapse_run.py:53). -/
def studyHi : Fin 10 → K := ![30, 2, 8 / 10, 2 / 10, 2, 1 / 10, 8 / 10, 2 / 10, 2, 1 / 10]

/-- One row of `population` (collapse_run.py:56-58): `jax.random.uniform` scales its numbers and cuts them off at `minval`. -/
def studySample (u : Fin 10 → K) (k : Fin 10) : K := max (studyLo k) (u k * (studyHi k - studyLo k) + studyLo k)

/-- The flat setup `SpectralSetup(scale_base=..., rms_height=0.0, num_harmonics=1)`; the other arguments are the defaults of
floor.py:22-29 (collapse_run.py:66-69, 91, 112-114). -/
def flatArgs (base : K) : SpectralArgs K :=
  { hurst := 8 / 10, lambdaMin := 1 / 10, lambdaMax := 2, rmsHeight := 0, scaleBase := base, keyFactor := 0 }

/-- Arguments of the frictions in the mode `VARY_FRIC` (collapse_run.py:81-88). -/
def studyFric (v : Fin 10 → K) : SpectralArgs K :=
  { hurst := v 2, lambdaMin := v 3, lambdaMax := v 4, rmsHeight := v 5, scaleBase := v 1, keyFactor := 0 }

/-- Arguments of the bumps in the mode `VARY_GEOM` (collapse_run.py:104-110); `scale_base` is left at its default. -/
def studyBump (v : Fin 10 → K) : SpectralArgs K :=
  { hurst := v 6, lambdaMin := v 7, lambdaMax := v 8, rmsHeight := v 9, scaleBase := 0, keyFactor := 0 }

/-- Number of harmonics of the bumps; `num_harmonics = 16` (collapse_run.py:33). -/
def StudyMode.nb : StudyMode → ℕ
  | .varyGeom => 16
  | _ => 1

/-- Number of harmonics of the frictions. -/
def StudyMode.nf : StudyMode → ℕ
  | .varyFric => 16
  | _ => 1

/-- `create_collapse_params` in the three modes (collapse_run.py:60-122). -/
def studyParams (fn : MathFns K) (pi : K) : (mode : StudyMode) → (Fin 10 → K) → ℕ → CollapseParams K mode.nb mode.nf
  | .varyAngle, v, id =>
    { bumps := spectralNew fn pi 1 (flatArgs 0), frictions := spectralNew fn pi 1 (flatArgs (1 / 2)), tiltAngle := v 0, simId := id }
  | .varyFric, v, id =>
    { bumps := spectralNew fn pi 1 (flatArgs 0), frictions := spectralNew fn pi 16 (studyFric v), tiltAngle := v 0, simId := id }
  | .varyGeom, v, id =>
    { bumps := spectralNew fn pi 16 (studyBump v), frictions := spectralNew fn pi 1 (flatArgs (1 / 2)), tiltAngle := v 0, simId := id }

/-- The floor of a run (collapse_setup.py:392-396). -/
def studyFloor (fn : MathFns K) (pi : K) (mode : StudyMode) (v : Fin 10 → K) : FloorState K mode.nb mode.nf :=
  { bumps := (studyParams fn pi mode v 0).bumps, frictions := some (studyParams fn pi mode v 0).frictions }

/-- The obstacle of the collapse (collapse_setup.py:16-17, 182-186): `origin = (0, -0.21)`, `end = (2, 0.41)`, column width 0.2. -/
def collapseGeom : FloorGeom K := { xMin := 0 + 2 / 10, xMax := 2, width := 5 / 10 }

/-- Initial stress of a point of the study at height `y`: the template is built once, without parameters, that is with
`tilt_angle = 0.0` (collapse_run.py:130, collapse_setup.py:54-58, 79-90); `run_with_trajectory` does not replace it. -/
def studyStress (fn : MathFns K) (pi y : K) : Mat3 K := columnStress fn pi 2650 (2 / 10) 0 y

/-- `jax.random.PRNGKey(seed)`: the high and the low word of the seed. -/
def prngKey (seed : ℕ) : Fin 2 → ℕ := ![seed / 2 ^ 32 % 2 ^ 32, seed % 2 ^ 32]

/-- The entry `"key"` of the metadata (collapse_run.py:159). -/
def studyKey (seed : ℕ) : ℕ := prngKey seed 0

end Hydrax
