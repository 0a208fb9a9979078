import Verif.Model.Basic

/-!
# Saving and loading

Model of `hydraxmpm/common/sim_io.py`. A pytree is a list of array leaves and a static part; Equinox writes the
leaves one after the other and reads them back against a skeleton. Not modelled: how one leaf is encoded
(`numpy.save`), path joining, messages, the time stamp of the metadata.
-/

namespace Hydrax

/-- A pytree: what is not saved, and the array leaves. -/
structure Tree (St L : Type*) where
  static : St
  leaves : List L

/-- `SimState` as seen by the recorder. -/
structure SavedState (St L : Type*) where
  step : ℤ
  tree : Tree St L

/-- A file is a list of encoded leaves, or text. -/
inductive Blob (L : Type*)
  | leaf (l : L)
  | text (s : String)

/-- One directory. -/
abbrev Dir (L : Type*) := List Char → Option (List (Blob L))

/-- Directories by path. -/
abbrev Disk (L : Type*) := String → Option (Dir L)

/-- Decimal digits. -/
def decDigits (n : ℕ) : List Char :=
  if n < 10 then [Char.ofNat (48 + n)] else decDigits (n / 10) ++ [Char.ofNat (48 + n % 10)]

/-- `f"{k:05d}"`. -/
def pad5 (k : ℤ) : List Char :=
  if 0 ≤ k then
    let d := decDigits k.toNat
    List.replicate (5 - d.length) '0' ++ d
  else
    let d := decDigits (-k).toNat
    '-' :: List.replicate (4 - d.length) '0' ++ d

/-- Name of a state file (sim_io.py:125, 150). -/
def stateName (k : ℤ) : List Char := "state_".toList ++ pad5 k ++ ".eqx".toList

/-- Name of the solver file (sim_io.py:98, 146). -/
def solverName : List Char := "solver_config.eqx".toList

/-- Name of the metadata file (sim_io.py:109). -/
def metaName : List Char := "metadata.json".toList

/-- Elementary effects on a directory, in the order in which they reach the disk. -/
inductive Prim (L : Type*)
  /-- `open(path, "wb")`: an empty file. -/
  | create (name : List Char)
  | append (name : List Char) (b : Blob L)

section
variable {St L Sh : Type*}

/-- Effect of one elementary operation. -/
def Prim.run (d : Dir L) : Prim L → Dir L
  | .create n => Function.update d n (some [])
  | .append n b => Function.update d n (some ((d n).getD [] ++ [b]))

/-- `eqx.tree_serialise_leaves`: create the file, then write the leaves in order. -/
def serialise (name : List Char) (t : Tree St L) : List (Prim L) :=
  .create name :: t.leaves.map fun l => .append name (.leaf l)

/-- `SimIO.save_step` (sim_io.py:114-133). -/
def saveStepPrims (s : SavedState St L) : List (Prim L) := serialise (stateName s.step) s.tree

/-- `SimIO.save_solver` (sim_io.py:88-112). -/
def saveSolverPrims (solver : Tree St L) (meta_ : String) : List (Prim L) :=
  serialise solverName solver ++ [.create metaName, .append metaName (.text meta_)]

/-- Running operations to the end. -/
def runPrims (d : Dir L) (ps : List (Prim L)) : Dir L := ps.foldl Prim.run d

/-- `eqx.tree_deserialise_leaves`: one leaf of the file per leaf of the skeleton, with the same shape and dtype
(`shape`); further content is ignored, a missing leaf or another shape is an error. -/
def readLeaves [DecidableEq Sh] (shape : L → Sh) : List L → List (Blob L) → Except PyErr (List L)
  | [], _ => .ok []
  | s :: ss, .leaf l :: bs => if shape l = shape s then (readLeaves shape ss bs).map (l :: ·) else .error .runtimeError
  | _ :: _, _ => .error .valueError

/-- `eqx.tree_deserialise_leaves` on a path. -/
def deserialise [DecidableEq Sh] (shape : L → Sh) (d : Dir L) (name : List Char) (skel : Tree St L) :
    Except PyErr (Tree St L) :=
  match d name with
  | none => .error .fileNotFoundError
  | some bs => (readLeaves shape skel.leaves bs).map fun ls => { skel with leaves := ls }

/-- `load_simulation` (sim_io.py:136-153). -/
def loadSimulation [DecidableEq Sh] (shape : L → Sh) (d : Dir L) (solverSkel stateSkel : Tree St L) (step : ℤ) :
    Except PyErr (Tree St L × Tree St L) := do
  let solver ← deserialise shape d solverName solverSkel
  let state ← deserialise shape d (stateName step) stateSkel
  pure (solver, state)

/-- `SimIO.__init__` (sim_io.py:59-86): `rmtree` if the directory exists and `overwrite`, then `makedirs`. -/
def openRecorder (disk : Disk L) (path : String) (overwrite : Bool := true) : Disk L :=
  Function.update disk path
    (match disk path with
     | none => some fun _ => none
     | some d => if overwrite then some fun _ => none else some d)

end
end Hydrax
