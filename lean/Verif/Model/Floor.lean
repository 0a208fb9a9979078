import Verif.Model.MathHelpers
import Mathlib.Algebra.BigOperators.Fin

/-!
# The rough floor of `projects/lorentz_collapse`

`floor.py`: a floor made of a sum of sine waves, and the obstacle built on it. Simplification: the constant `jnp.pi` is a
parameter `pi`.
-/

namespace Hydrax

variable {K : Type*} [Field K] [LinearOrder K]

/-- `jnp.linspace(a, b, n)[i]`: `n` equally spaced numbers from `a` to `b`, only `a` if `n = 1`. -/
def linspaceAt (a b : K) (n i : ℕ) : K := if n ≤ 1 then a else a + (b - a) * (i / ((n - 1 : ℕ) : K))

/-- `jnp.log10`. -/
def log10 (fn : MathFns K) (x : K) : K := fn.log x / fn.log 10

/-- `jnp.logspace(a, b, n)[i]`: base 10. -/
def logspaceAt (fn : MathFns K) (a b : K) (n i : ℕ) : K := fn.pow 10 (linspaceAt a b n i)

/-- Fields of `SpectralSetup` (floor.py:16-19). -/
structure Spectral (K : Type*) (n : ℕ) where
  amplitudes : Fin n → K
  wavenumbers : Fin n → K
  phases : Fin n → K
  scaleBase : K

/-- Arguments of `SpectralSetup.__init__` apart from the number of harmonics, with the defaults of the code (floor.py:21-30). -/
structure SpectralArgs (K : Type*) where
  hurst : K
  lambdaMin : K
  lambdaMax : K
  rmsHeight : K
  scaleBase : K
  keyFactor : K

/-- The wave numbers of `SpectralSetup.__init__` (floor.py:37-42). -/
def spectralWavenumber (fn : MathFns K) (pi : K) (n : ℕ) (a : SpectralArgs K) (i : Fin n) : K :=
  logspaceAt fn (log10 fn (2 * pi / a.lambdaMax)) (log10 fn (2 * pi / a.lambdaMin)) n i

/-- The amplitudes before scaling (floor.py:46). -/
def spectralRaw (fn : MathFns K) (pi : K) (n : ℕ) (a : SpectralArgs K) (i : Fin n) : K :=
  fn.pow (spectralWavenumber fn pi n a i) (-(a.hurst + 1 / 2))

/-- `current_rms` (floor.py:50). -/
def spectralRms (fn : MathFns K) (pi : K) (n : ℕ) (a : SpectralArgs K) : K :=
  fn.sqrt ((∑ i, spectralRaw fn pi n a i ^ 2) / 2)

/-- `SpectralSetup.__init__` (floor.py:21-54). -/
def spectralNew (fn : MathFns K) (pi : K) (n : ℕ) (a : SpectralArgs K) : Spectral K n :=
  { scaleBase := a.scaleBase
    wavenumbers := spectralWavenumber fn pi n a
    amplitudes := fun i => spectralRaw fn pi n a i * (a.rmsHeight / spectralRms fn pi n a)
    phases := fun i => linspaceAt 0 (2 * pi) n i * a.keyFactor }

/-- `SpectralSetup.get_bump_waves` (floor.py:57-59). -/
def Spectral.waves {n : ℕ} (fn : MathFns K) (s : Spectral K n) (x : K) : K :=
  ∑ i, s.amplitudes i * fn.sin (s.wavenumbers i * x + s.phases i)

/-- `SpectralSetup.__call__` (floor.py:63-64). -/
def Spectral.call {n : ℕ} (fn : MathFns K) (s : Spectral K n) (x : K) : K := s.scaleBase + s.waves fn x

/-- Fields of `BumpyFloorSDF` (floor.py:73-75). -/
structure FloorGeom (K : Type*) where
  xMin : K
  xMax : K
  width : K

/-- The part of `BumpyFloorSDFState` (floor.py:67-69) that the obstacle reads. -/
structure FloorState (K : Type*) (n m : ℕ) where
  bumps : Spectral K n
  frictions : Option (Spectral K m)

/-- The height of the floor over `x` (floor.py:113-131). -/
def floorHeight {n m : ℕ} (fn : MathFns K) (g : FloorGeom K) (st : FloorState K n m) (x : K) : K :=
  let xRel := x - g.xMin
  let weight := min (max (xRel / g.width) 0) 1
  let h := st.bumps.scaleBase + st.bumps.waves fn xRel * weight
  let hEnd := st.bumps.scaleBase + st.bumps.waves fn (x - g.xMax)
  if x > g.xMax then hEnd else h

/-- `BumpyFloorSDF.signed_distance_local` (floor.py:112-135); `transform_to_local` (floor.py:161-162) is the identity, so this is
also the distance in world coordinates. -/
def floorDist {n m : ℕ} (fn : MathFns K) (g : FloorGeom K) (st : FloorState K n m) (p : Fin 2 → K) : K :=
  p 1 - floorHeight fn g st (p 0)

/-- `BumpyFloorSDF.get_surface_friction_local` (floor.py:137-159). -/
def floorFriction {n m : ℕ} (fn : MathFns K) (g : FloorGeom K) (st : FloorState K n m) (p : Fin 2 → K) : K :=
  match st.frictions with
  | none => 1 / 2
  | some f => max (1 / 10 ^ 6) (f.call fn (if p 0 > g.xMax then p 0 - g.xMax else p 0 - g.xMin))

/-- Lower corner of `BumpyFloorSDF.get_world_aabb` (floor.py:164-171), the same as in `create_state` (floor.py:92). -/
def floorBoxMin {n m : ℕ} (st : FloorState K n m) : Fin 2 → K :=
  ![-10 ^ 6, st.bumps.scaleBase - ∑ i, |st.bumps.amplitudes i|]

/-- Upper corner of `BumpyFloorSDF.get_world_aabb` (floor.py:171). -/
def floorBoxMax : Fin 2 → K := ![10 ^ 6, 10 ^ 6]

end Hydrax
