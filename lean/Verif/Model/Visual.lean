import Verif.Model.MaterialPoints
import Verif.Model.Sdf
import Verif.Model.SimIO

/-!
# Visual output

Model of `hydraxmpm/common/rerun.py` and `hydraxmpm/common/vtk_io.py`: what is handed to the drawing libraries. What these do
with it (Rerun, PyVista), the contour finders of scikit-image and the colour maps of matplotlib are not modelled: a contour
or a mesh enters as given index coordinates, a colour as the number handed to the colour map. `print`, time stamps, line
widths and fixed colours are left out.
-/

namespace Hydrax

section
variable {K : Type*} [Field K] [LinearOrder K] [FloorRing K]

/-! ### Sampling a signed distance (rerun.py:322-341, vtk_io.py:149-165; the two are the same text) -/

/-- `domain_size = end * 1.05 - start * 0.95` (rerun.py:327, vtk_io.py:154). -/
def sampleExtent {dim : ℕ} (start stop : Fin dim → K) : Fin dim → K :=
  fun a => stop a * (105 / 100) - start a * (95 / 100)

/-- `step_size = np.max(domain_size) / resolution` (rerun.py:328, vtk_io.py:155). -/
def sampleStep {m : ℕ} (start stop : Fin (m + 1) → K) (resolution : ℕ) : K :=
  maxv (sampleExtent start stop) / resolution

/-- `aspect_size` and the call of `np.indices` (rerun.py:330-331, vtk_io.py:156-158). A negative size raises `ValueError`; so
does a step of zero, for which the quotient is `nan` or `-inf` and the conversion to `int` gives the least integer. -/
def sampleShape {m : ℕ} (start stop : Fin (m + 1) → K) (resolution : ℕ) : Except PyErr (Fin (m + 1) → ℕ) :=
  let h := sampleStep start stop resolution
  let size := fun a => ⌈sampleExtent start stop a / h⌉
  if h = 0 ∨ ∃ a, size a < 0 then .error .valueError else .ok fun a => (size a).toNat

/-- World coordinates of a (possibly fractional) index: `indices * step_size + start` for the samples (rerun.py:332,
vtk_io.py:159) and `start + vertex * step_size` for what the contour finder returns (rerun.py:354-355, 381-384,
vtk_io.py:180-183, 200). -/
def worldCoord {m : ℕ} (start stop : Fin (m + 1) → K) (resolution : ℕ) (idx : Fin (m + 1) → K) : Fin (m + 1) → K :=
  fun a => idx a * sampleStep start stop resolution + start a

/-- `sdf_grid` (rerun.py:336-341, vtk_io.py:162-166): the distance at the sample with index `idx`. -/
def sdfSample {m : ℕ} (dist : (Fin (m + 1) → K) → K) (start stop : Fin (m + 1) → K) (resolution : ℕ) (idx : Fin (m + 1) → ℕ) : K :=
  dist (worldCoord start stop resolution fun a => (idx a : K))

/-! ### Meshes -/

/-- A surface as returned by `measure.marching_cubes`: vertices in index coordinates and their normals. -/
structure IndexMesh (K : Type*) (n : ℕ) where
  verts : Fin n → Fin 3 → K
  normals : Fin n → Fin 3 → K

/-- Vertices and normals of the mesh logged by `RerunVisualizer.log_sdf` (rerun.py:381-399): the normals are permuted. -/
def rerunMesh (start stop : Fin 3 → K) (resolution : ℕ) {n : ℕ} (msh : IndexMesh K n) : IndexMesh K n :=
  { verts := fun v => worldCoord start stop resolution (msh.verts v)
    normals := fun v => ![msh.normals v 1, msh.normals v 0, msh.normals v 2] }

/-- Vertices and normals of the mesh saved by `VTKVisualizer.log_sdf` (vtk_io.py:199-205). -/
def vtkMesh (start stop : Fin 3 → K) (resolution : ℕ) {n : ℕ} (msh : IndexMesh K n) : IndexMesh K n :=
  { verts := fun v => worldCoord start stop resolution (msh.verts v), normals := msh.normals }

/-- A vertex of a plane contour as logged by Rerun, with the second axis turned over (rerun.py:354-360). -/
def rerunContourPoint (start stop : Fin 2 → K) (resolution : ℕ) (idx : Fin 2 → K) : Fin 2 → K :=
  let w := worldCoord start stop resolution idx
  ![w 0, -w 1]

/-- A vertex of a plane contour as saved in a VTK file (vtk_io.py:180-183). -/
def vtkContourPoint (start stop : Fin 2 → K) (resolution : ℕ) (idx : Fin 2 → K) : Fin 3 → K :=
  let w := worldCoord start stop resolution idx
  ![w 0, w 1, 0]

/-- `lines` of the combined contours (vtk_io.py:173-194): for each contour its length followed by the running numbers of its
vertices. -/
def vtkLines (offset : ℕ) : List ℕ → List ℕ
  | [] => []
  | n :: ns => n :: ((List.range n).map (· + offset)) ++ vtkLines (offset + n) ns

/-- `np.hstack(np.c_[np.full(len(faces), 3), faces])` (vtk_io.py:202). -/
def vtkFaces (faces : List (Fin 3 → ℕ)) : List ℕ := faces.flatMap fun f => [3, f 0, f 1, f 2]

/-! ### Points -/

/-- `_point_radius` (rerun.py:185-192, vtk_io.py:62-71), from the *initial* volume. In other dimensions the name is not
bound. -/
def pointRadius (fn : MathFns K) (pi : K) (dim : ℕ) (volume0 scale : K) : Except PyErr K :=
  if dim = 2 then .ok (fn.sqrt (volume0 / pi) * scale)
  else if dim = 3 then .ok (fn.pow (3 * volume0 / (4 * pi)) (1 / 3) * scale)
  else .error .unboundLocalError

/-- `vis_pos` of `log_material_points` (rerun.py:240-261). -/
def rerunPoint {dim : ℕ} (x : Fin dim → K) : Fin dim → K :=
  fun a => if dim = 2 ∧ a.val = 1 then -x a else x a

/-- `positions_3d` (vtk_io.py:75-80). -/
def vtkPoint {dim : ℕ} (x : Fin dim → K) : Fin 3 → K :=
  fun a => if h : a.val < dim then x ⟨a.val, h⟩ else 0

/-- Corners `mins` and `mins + sizes` of the box of `RerunVisualizer.log_static_domain` (rerun.py:263-299). -/
def rerunBox {dim : ℕ} (origin stop : Fin dim → K) (cellSize : K) : (Fin dim → K) × (Fin dim → K) :=
  let lo := rerunPoint origin
  let hi := rerunPoint fun a => stop a + cellSize
  let sizes := fun a => hi a - lo a
  (lo, fun a => lo a + sizes a)

/-- `bounds` of `VTKVisualizer.log_static_domain` (vtk_io.py:111-126): lower and upper corner. -/
def vtkBox {dim : ℕ} (origin stop : Fin dim → K) (cellSize : K) : (Fin 3 → K) × (Fin 3 → K) :=
  (fun a => if h : a.val < dim then origin ⟨a.val, h⟩ else -(1 / 100),
   fun a => if h : a.val < dim then stop ⟨a.val, h⟩ + cellSize else 1 / 100)

/-! ### Colours -/

/-- An attribute of a state by the number of its axes. -/
inductive PropData (K : Type*) (n : ℕ)
  | scalar (f : Fin n → K)
  | vector {d : ℕ} (f : Fin n → Fin d → K)
  | tensor (f : Fin n → Mat3 K)

/-- `scalar_field` (rerun.py:210-224); `nan_to_num` is the identity on numbers. -/
def scalarField (fn : MathFns K) {n : ℕ} : PropData K n → Fin n → K
  | .scalar f => f
  | .vector f => fun p => fn.sqrt (∑ a, f p a ^ 2)
  | .tensor f => fun p => fn.sqrt (∑ a, ∑ b, f p a b ^ 2)

/-- `normalized` (rerun.py:226-235): the numbers handed to the colour map. -/
def colourValues {m : ℕ} (vMin vMax : Option K) (f : Fin (m + 1) → K) : Fin (m + 1) → K :=
  let lo := vMin.getD (minv f)
  let hi := vMax.getD (maxv f)
  if hi - lo < 1 / 10 ^ 6 then fun _ => 0 else fun p => (f p - lo) / (hi - lo)

/-- What decides the colour of a point. -/
inductive PointColour (K : Type*) (C : Type*)
  | given (c : C)
  | grey
  | mapped (v : K)

/-- A `color` argument: one colour for all points or one for each (rerun.py:194-199). -/
inductive ColourArg (C : Type*) (n : ℕ)
  | one (c : C)
  | each (c : Fin n → C)

/-- `colors` of `log_material_points` (rerun.py:194-237). -/
def pointColours (fn : MathFns K) {C : Type*} {m : ℕ} (color : Option (ColourArg C (m + 1))) (prop : Option (PropData K (m + 1)))
    (vMin vMax : Option K) : Fin (m + 1) → PointColour K C :=
  match color, prop with
  | some (.one c), _ => fun _ => .given c
  | some (.each c), _ => fun p => .given (c p)
  | none, none => fun _ => .grey
  | none, some d => fun p => .mapped (colourValues vMin vMax (scalarField fn d) p)

/-! ### VTK files -/

/-- A property as stored in the file (vtk_io.py:84-97): vectors of two components get a zero third one; a name that the state
does not have leaves `np.array(None)`. -/
inductive VtkProp (K : Type*) (n : ℕ)
  | data (d : PropData K n)
  | object

/-- Padding of plane vectors (vtk_io.py:87-93). -/
def padProp {n : ℕ} : PropData K n → PropData K n
  | .vector (d := d) f => if d = 2 then .vector (d := 3) (fun p => vtkPoint (f p)) else .vector f
  | .scalar f => .scalar f
  | .tensor f => .tensor f

/-- Content of a point file. -/
structure VtkCloud (K : Type*) (n : ℕ) where
  points : Fin n → Fin 3 → K
  prop : VtkProp K n
  radius : Fin n → K
  time : Option K

/-- `f"step_{k:05d}.vtp"` (vtk_io.py:107, 215). -/
def stepName (k : ℤ) : List Char := "step_".toList ++ pad5 k ++ ".vtp".toList

/-- `log_particles` (vtk_io.py:48-107) up to the writing of the file: its name and its content. `lookup` is `getattr(mp_state,
·, None)`. With `property_name=None` the variable `prop_data` is read before it is bound (84). -/
def vtkParticles (fn : MathFns K) (pi : K) {dim n : ℕ} (s : MPState K dim n) (lookup : String → Option (PropData K n))
    (propName : Option String) (scale : K) (time : Option K) (step : Option ℤ) : Except PyErr (List Char × VtkCloud K n) :=
  if dim ≠ 2 ∧ dim ≠ 3 then .error .unboundLocalError
  else
    match propName with
    | none => .error .unboundLocalError
    | some name =>
      .ok (stepName (step.getD 0),
        { points := fun p => vtkPoint (s.position p)
          prop := match lookup name with | none => .object | some d => .data (padProp d)
          radius := fun p => match pointRadius fn pi dim (s.volume0 p) scale with | .ok r => r | .error _ => 0
          time := time })

/-- Saving of the mesh at the end of `log_sdf` (vtk_io.py:209-215): the name uses `int(step)` even without a step, and the
suffix "static" is not used. -/
def vtkSdfName (hasMesh : Bool) (step : Option ℤ) : Except PyErr (Option (List Char)) :=
  if !hasMesh then .ok none
  else
    match step with
    | none => .error .typeError
    | some k => .ok (some (stepName k))

/-- The output directory: content by label and file name; `_save_vtk` (vtk_io.py:38-46) overwrites. -/
abbrev VtkDir (α : Type*) := String → List Char → Option α

/-- `_save_vtk` (vtk_io.py:38-46). -/
def saveVtk {α : Type*} (d : VtkDir α) (label : String) (name : List Char) (x : α) : VtkDir α :=
  fun l n => if l = label ∧ n = name then some x else d l n

/-- A successful call of a logging function: label, step and what is written. -/
structure VtkCall (α : Type*) where
  label : String
  step : Option ℤ
  content : α

/-- The directory after a sequence of calls of `log_particles` (vtk_io.py:106-107). -/
def vtkRun {α : Type*} (d : VtkDir α) : List (VtkCall α) → VtkDir α
  | [] => d
  | c :: cs => vtkRun (saveVtk d c.label (stepName (c.step.getD 0)) c.content) cs

end

/-! ### The viewer (rerun.py:99-146) -/

/-- `mode` of the constructor. -/
inductive ViewerMode
  | spawn
  | serve
  | save
  | other
deriving DecidableEq

/-- What a constructor does to the outside. -/
inductive ViewerEffect
  | openWindow
  | openServer
  | saveFile
deriving DecidableEq

/-- One call of `RerunVisualizer(mode=...)` (rerun.py:137-146): the class flag before and after, and the effects. -/
def newVisualizer (started : Bool) (mode : ViewerMode) : Bool × List ViewerEffect :=
  if !started then
    (true, match mode with
      | .spawn => [.openWindow]
      | .serve => [.openServer]
      | _ => [])
  else (started, if mode = .save then [.saveFile] else [])

/-- The effects of the constructors of one process, in order. -/
def viewerRun (started : Bool) : List ViewerMode → List ViewerEffect
  | [] => []
  | m :: ms => (newVisualizer started m).2 ++ viewerRun (newVisualizer started m).1 ms

end Hydrax
