/-
Model of /repo/src/meshio/_helpers.py: the format registry, `read` and `write`.
-/
import Verif.Model.Mesh

namespace Meshio

/-- The three module-level dictionaries of /repo/src/meshio/_helpers.py:14-16. -/
structure Registry (Rd Wr : Type) where
  exts : Dict (List String)
  readers : Dict Rd
  writers : Dict Wr
deriving DecidableEq, Repr

variable {Rd Wr : Type}

/-- State right after the module is imported, /repo/src/meshio/_helpers.py:14-16. -/
def Registry.init : Registry Rd Wr := ⟨[], [], []⟩

/-- The loop `for ext in extensions`, /repo/src/meshio/_helpers.py:22-25. -/
def registerExts (d : Dict (List String)) (name : String) : List String → Dict (List String)
  | [] => d
  | e :: es => registerExts (Dict.append d e name) name es

/-- `register_format`, /repo/src/meshio/_helpers.py:19-30. -/
def Registry.register (r : Registry Rd Wr) (name : String) (extensions : List String)
    (reader : Option Rd) (writerMap : Dict Wr) : Registry Rd Wr where
  exts := registerExts r.exts name extensions
  readers := match reader with | some f => r.readers.set name f | none => r.readers
  writers := r.writers.update writerMap

/-- `deregister_format`, /repo/src/meshio/_helpers.py:33-42 (`list.remove` removes
the first occurrence, like `List.erase`). -/
def Registry.deregister (r : Registry Rd Wr) (name : String) : Registry Rd Wr where
  exts := r.exts.map (fun kv => (kv.1, if name ∈ kv.2 then kv.2.erase name else kv.2))
  readers := if r.readers.has name then r.readers.erase name else r.readers
  writers := if r.writers.has name then r.writers.erase name else r.writers

/-- `s.lower()`.  Simplification: ASCII letters only. -/
def lowerS (s : List Char) : List Char := s.map Char.toLower

/-- `pathlib.PurePath.suffixes` of a path whose last component is `name` (standard
library, Python ≤ 3.13): names ending in a dot have no suffixes, leading dots are
ignored. -/
def pathSuffixes (name : List Char) : List (List Char) :=
  if name.getLast? = some '.' then []
  else ((splitOnC '.' (name.dropWhile (· = '.'))).drop 1).map ('.' :: ·)

/-- The loop of `_filetypes_from_path`, /repo/src/meshio/_helpers.py:46-53; the
first argument is `reversed(path.suffixes)`. -/
def filetypesLoop (exts : Dict (List String)) :
    List (List Char) → List Char → List String → List String
  | [], _, out => out
  | suffix :: l, ext, out =>
    let ext' := lowerS (suffix ++ ext)
    match exts.get? (String.ofList ext') with
    | some fs => filetypesLoop exts l ext' (out ++ fs)
    | none => filetypesLoop exts l ext' out

/-- `_filetypes_from_path`, /repo/src/meshio/_helpers.py:45-57. -/
def filetypesFromPath (exts : Dict (List String)) (name : List Char) : Res (List String) :=
  let out := filetypesLoop exts (pathSuffixes name).reverse [] []
  if out = [] then .error .readError else .ok out

/-- What the caller passes as `filename`: an object with a `read` attribute, or a
path, given by its last component and whether it exists. -/
inductive Target where
  | buffer
  | path (name : List Char) (pathExists : Bool)
deriving DecidableEq, Repr

/-- Python truth of an optional format string: `None` and `""` are false. -/
def truthy : Option String → Option String
  | some f => if f = "" then none else some f
  | none => none

/-- Result of a call together with the list of formats whose reader (or writer) was
called, in order. -/
structure Traced (α : Type) where
  result : Res α
  calls : List String
deriving DecidableEq, Repr

/-- A reader: what calling it on the given target yields. -/
abbrev Reader (M : Type) := Target → Res M

/-- The loop over candidates, /repo/src/meshio/_helpers.py:98-114; `calls` are the
readers called so far.  Falling off the end is `sys.exit(1)`. -/
def readLoop {M : Type} (readers : Dict (Reader M)) (t : Target) :
    List String → List String → Traced M
  | [], calls => ⟨.error (.exit 1), calls⟩
  | f :: fs, calls =>
    match readers.get? f with
    | none => ⟨.error .readError, calls⟩
    | some rd =>
      match rd t with
      | .ok m => ⟨.ok m, calls ++ [f]⟩
      | .error .readError => readLoop readers t fs (calls ++ [f])
      | .error e => ⟨.error e, calls ++ [f]⟩

/-- `_read_file`, /repo/src/meshio/_helpers.py:88-114. -/
def readFile {M : Type} (r : Registry (Reader M) Wr) (name : List Char) (pathExists : Bool)
    (fmt : Option String) : Traced M :=
  if !pathExists then ⟨.error .readError, []⟩
  else
    match truthy fmt with
    | some f => readLoop r.readers (.path name pathExists) [f] []
    | none =>
      match filetypesFromPath r.exts name with
      | .error e => ⟨.error e, []⟩
      | .ok cands => readLoop r.readers (.path name pathExists) cands []

/-- `_read_buffer`, /repo/src/meshio/_helpers.py:74-85. -/
def readBuffer {M : Type} (r : Registry (Reader M) Wr) (fmt : Option String) : Traced M :=
  match fmt with
  | none => ⟨.error .readError, []⟩
  | some f =>
    if f = "tetgen" then ⟨.error .readError, []⟩
    else
      match r.readers.get? f with
      | none => ⟨.error .readError, []⟩
      | some rd => ⟨rd .buffer, [f]⟩

/-- `read`, /repo/src/meshio/_helpers.py:60-71. -/
def readMesh {M : Type} (r : Registry (Reader M) Wr) (t : Target) (fmt : Option String) :
    Traced M :=
  match t with
  | .buffer => readBuffer r fmt
  | .path name ex => readFile r name ex fmt

/-- The sanity check over the blocks, /repo/src/meshio/_helpers.py:173-185.
`value.shape[1]` raises IndexError for a one-dimensional array. -/
def checkBlocks : List CellBlock → Res Unit
  | [] => .ok ()
  | c :: cs =>
    match numNodesPerCell.get? c.type with
    | none => checkBlocks cs
    | some k =>
      match c.data.tail with
      | [] => .error .indexError
      | w :: _ => if w ≠ k then .error .writeError else checkBlocks cs

/-- `file_formats[0]`, /repo/src/meshio/_helpers.py:162-164. -/
def firstOf : Res (List String) → Res String
  | .error e => .error e
  | .ok [] => .error .indexError
  | .ok (f :: _) => .ok f

/-- The choice of the format, /repo/src/meshio/_helpers.py:151-164. -/
def writeFormat (exts : Dict (List String)) (t : Target) (fmt : Option String) : Res String :=
  match t with
  | .buffer =>
    match fmt with
    | none => .error .writeError
    | some f => if f = "tetgen" then .error .writeError else .ok f
  | .path name _ =>
    match truthy fmt with
    | some f => .ok f
    | none => firstOf (filetypesFromPath exts name)

/-- `write`, /repo/src/meshio/_helpers.py:142-188; a writer is what calling it on a
target and a mesh yields. -/
def writeMesh {P R A : Type} (r : Registry Rd (Target → Mesh P R → Res A)) (t : Target)
    (m : Mesh P R) (fmt : Option String) : Traced A :=
  match writeFormat r.exts t fmt with
  | .error e => ⟨.error e, []⟩
  | .ok f =>
    match r.writers.get? f with
    | none => ⟨.error .writeError, []⟩
    | some w =>
      match checkBlocks m.cells with
      | .error e => ⟨.error e, []⟩
      | .ok () => ⟨w t m, [f]⟩

/-- `write_points_cells`, /repo/src/meshio/_helpers.py:117-139: build the mesh, then
write it (`Mesh.write`, /repo/src/meshio/_mesh.py:237-241). -/
def writePointsCells {P R A : Type} (r : Registry Rd (Target → Mesh P R → Res A)) (t : Target)
    (points : List P) (cells : List (String × NArr (List Int))) (pointData : Dict (DataArr R))
    (cellData : Dict (List (DataArr R))) (pointSets : Dict (List Nat))
    (cellSets : Dict (List (Option (List Nat)))) (fmt : Option String) : Traced A :=
  match Mesh.new points cells pointData cellData pointSets cellSets with
  | .error e => ⟨.error e, []⟩
  | .ok m => writeMesh r t m fmt

end Meshio
