import Verif.Model.Sdf

/-!
# Further obstacles

Model of `StarSDF` and `MaterialPointCloudSDF` (`hydraxmpm/sdf/sdfcollection.py`) and of `GridSDF`
(`hydraxmpm/sdf/gridsdf.py`, the table as loaded from the file).
-/

namespace Hydrax

section
variable {K : Type*} [Field K] [LinearOrder K] {dim : ℕ}

/-- `jnp.pi`, `jnp.arctan2` and `jnp.round`. -/
structure PolarFns (K : Type*) where
  pi : K
  atan2 : K → K → K
  rint : K → K

/-- `an` (sdfcollection.py:304). -/
def starAngle (pf : PolarFns K) (points : ℕ) : K := pf.pi / points

/-- The point folded into the sector of one half arm (sdfcollection.py:308-326). -/
def starFold (fn : MathFns K) (pf : PolarFns K) (points : ℕ) (p : Fin 2 → K) : Fin 2 → K :=
  let an := starAngle pf points
  let angle := pf.atan2 (p 0) (p 1)
  let sectorIdx := pf.rint (angle / (2 * an))
  let sectorAngle := sectorIdx * (2 * an)
  let c := fn.cos sectorAngle
  let s := fn.sin sectorAngle
  ![|p 0 * c - p 1 * s|, p 0 * s + p 1 * c]

/-- Distance to the edge from `v1` to `v2`, negative on the side of the centre (sdfcollection.py:338-359). -/
def edgeDist (fn : MathFns K) (v1 v2 p : Fin 2 → K) : K :=
  let edge := fun a => v2 a - v1 a
  let h := clipK 0 1 (dotv (fun a => p a - v1 a) edge / dotv edge edge)
  let dist := norm2 fn fun a => p a - (v1 a + h * edge a)
  let cross := edge 0 * (p 1 - v1 1) - edge 1 * (p 0 - v1 0)
  dist * sgn cross

/-- `StarSDF.signed_distance_local` (sdfcollection.py:298-359). -/
def starDist (fn : MathFns K) (pf : PolarFns K) (points : ℕ) (rOut rIn : K) (p : Fin 2 → K) : K :=
  let an := starAngle pf points
  edgeDist fn ![0, rOut] ![rIn * fn.sin an, rIn * fn.cos an] (starFold fn pf points p)

/-- Radii of the points (sdfcollection.py:525-530). -/
def cloudRadius (fn : MathFns K) (pi : K) (dim : ℕ) (volume : K) : K :=
  if dim = 2 then fn.sqrt (volume / pi + 1 / 10 ^ 12) else fn.pow (3 * volume / (4 * pi)) (1 / 3)

/-- `MaterialPointCloudSDF.signed_distance` (sdfcollection.py:520-538) for at least one point; `logsumexp` is
`log (Σ exp)`. -/
def cloudDist (fn : MathFns K) (pi smooth : K) {m : ℕ} (position : Fin (m + 1) → Fin dim → K) (volume0 : Fin (m + 1) → K)
    (x : Fin dim → K) : K :=
  let dists := fun i => norm2 fn (fun a => x a - position i a) - cloudRadius fn pi dim (volume0 i)
  if smooth > 1 / 1000 then -fn.log (∑ i, fn.exp (-smooth * dists i)) / smooth else minv dists

/-- `GridSDF` (gridsdf.py:22-42): the table, its box, thickness and scale. -/
structure GridTable (K : Type*) where
  res : Fin 3 → ℕ
  data : (Fin 3 → ℤ) → K
  lo : Fin 3 → K
  size : Fin 3 → K
  thickness : K
  scale : K

/-- One axis of `map_coordinates(order=1, mode="nearest")`: the two clipped indices with their weights. -/
def axisNodes [FloorRing K] (n : ℕ) (c : K) : List (ℤ × K) :=
  let clip := fun i : ℤ => max 0 (min i (n - 1))
  [(clip ⌊c⌋, 1 - (c - ⌊c⌋)), (clip (⌊c⌋ + 1), c - ⌊c⌋)]

/-- `map_coordinates(data, c, order=1, mode="nearest")` on a three-dimensional table. -/
def mapCoordinates [FloorRing K] (res : Fin 3 → ℕ) (data : (Fin 3 → ℤ) → K) (c : Fin 3 → K) : K :=
  ((axisNodes (res 0) (c 0)).map fun (i : ℤ × K) => i.2 *
    ((axisNodes (res 1) (c 1)).map fun (j : ℤ × K) => j.2 *
      ((axisNodes (res 2) (c 2)).map fun (k : ℤ × K) => k.2 * data ![i.1, j.1, k.1]).sum).sum).sum

/-- Table coordinates of a local position (gridsdf.py:65-72). -/
def GridTable.coords (g : GridTable K) (p : Fin 3 → K) : Fin 3 → K :=
  fun a => (p a / g.scale - g.lo a) / (g.size a + 1 / 10 ^ 12) * ((g.res a : K) - 1)

/-- `GridSDF.signed_distance_local` (gridsdf.py:60-82). -/
def GridTable.dist [FloorRing K] (g : GridTable K) (p : Fin 3 → K) : K :=
  mapCoordinates g.res g.data (g.coords p) * g.scale - g.thickness

/-- `GridSDF.get_local_bounds` (gridsdf.py:44-58). -/
def GridTable.bounds (g : GridTable K) : (Fin 3 → K) × (Fin 3 → K) :=
  (fun a => g.lo a * g.scale - g.thickness, fun a => (g.lo a + g.size a) * g.scale + g.thickness)

end
end Hydrax
