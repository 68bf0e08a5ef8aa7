/-
Model of /repo/src/meshio/cgns/_cgns.py.  An HDF5 file is a tree of named groups and arrays; compression is left to h5py.  All arrays have one
axis; a file with arrays of other shapes is left out.
-/
import Verif.Base.Hdf
import Verif.Base.Num

namespace Meshio.Cgns

/-- A group with its members, or a data set. -/
inductive Node (F : Type) where
  | group (members : List (List Char × Node F))
  | floats (l : List F)
  | ints (l : List Int)

variable {F : Type}

/-- `node[name]`: a KeyError if there is no member of the name; a data set has none (h5py raises a ValueError for names of fields). -/
def member (n : Node F) (name : String) : Res (Node F) :=
  match n with
  | .group l =>
    match l.lookup name.toList with
    | some m => .ok m
    | none => .error .keyError
  | _ => .error .valueError

/-- `f[a][b]..` -/
def path (n : Node F) : List String → Res (Node F)
  | [] => .ok n
  | p :: ps =>
    match member n p with
    | .error e => .error e
    | .ok m => path m ps

/-- `name in group` -/
def has (n : Node F) (name : String) : Bool :=
  match n with
  | .group l => (l.lookup name.toList).isSome
  | _ => false

/-- The mesh that is read: points and cells. -/
structure Mesh (F : Type) where
  points : List (List F)
  cells : List (String × List (List Int))
deriving DecidableEq, Repr

/-- A data set of coordinates at a path; arrays of integers and groups are left out. -/
def floatsAt (n : Node F) (p : List String) : Res (List F) :=
  match path n p with
  | .error e => .error e
  | .ok (.floats l) => .ok l
  | .ok _ => .error .unmodelled

/-- A data set of integers at a path. -/
def intsAt (n : Node F) (p : List String) : Res (List Int) :=
  match path n p with
  | .error e => .error e
  | .ok (.ints l) => .ok l
  | .ok _ => .error .unmodelled

/-- `np.column_stack([x, y, z])` -/
def columnStack (x y z : List F) : Res (List (List F)) :=
  if x.length = y.length ∧ x.length = z.length then .ok ((x.zip (y.zip z)).map fun p => [p.1, p.2.1, p.2.2]) else .error .valueError

/-- Rows of `w` entries. -/
def rowsOf (w : Nat) : Nat → List Int → List (List Int)
  | 0, _ => []
  | n + 1, l => l.take w :: rowsOf w n (l.drop w)

/-- `np.array(data).reshape(idx_max, -1) - 1`, then the check of the width, /repo/src/meshio/cgns/_cgns.py:33-39. -/
def cellsOf (idxMax : Int) (data : List Int) : Res (List (List Int)) :=
  if idxMax ≤ 0 then .error .valueError
  else if data.length % idxMax.toNat ≠ 0 then .error .valueError
  else if data.length / idxMax.toNat ≠ 4 then .error .readError
  else .ok (rowsOf 4 idxMax.toNat (data.map (· - 1)))

/-- `read`, /repo/src/meshio/cgns/_cgns.py:14-41. -/
def read (f : Node F) : Res (Mesh F) :=
  if ¬ has f "Base" then .error .readError
  else
    match path f ["Base"] with
    | .error e => .error e
    | .ok base =>
      if ¬ has base "Zone1" then .error .readError
      else
        match floatsAt f ["Base", "Zone1", "GridCoordinates", "CoordinateX", " data"] with
        | .error e => .error e
        | .ok x =>
          match floatsAt f ["Base", "Zone1", "GridCoordinates", "CoordinateY", " data"] with
          | .error e => .error e
          | .ok y =>
            match floatsAt f ["Base", "Zone1", "GridCoordinates", "CoordinateZ", " data"] with
            | .error e => .error e
            | .ok z =>
              match columnStack x y z with
              | .error e => .error e
              | .ok points =>
                match intsAt f ["Base", "Zone1", "GridElements", "ElementRange", " data"] with
                | .error e => .error e
                | .ok [_, idxMax] =>
                  match intsAt f ["Base", "Zone1", "GridElements", "ElementConnectivity", " data"] with
                  | .error e => .error e
                  | .ok data =>
                    match cellsOf idxMax data with
                    | .error e => .error e
                    | .ok cells => .ok ⟨points, [("tetra", cells)]⟩
                | .ok _ => .error .valueError

/-- What is written: points with `dim` columns, cells, and the names of the data, which the writer does not look at. -/
structure In (F : Type) where
  dim : Nat
  points : List (List F)
  cells : List (String × List (List Int))
  pointData : List String := []
  cellData : List String := []

/-- `mesh.points[:, j]` -/
def column (m : In F) (j : Nat) : Res (List F) :=
  if j < m.dim then .ok (m.points.filterMap fun p => p[j]?) else .error .indexError

/-- The loop that creates a data set for each block of tetrahedra, /repo/src/meshio/cgns/_cgns.py:84-104. -/
def tetraSets (val : List (List Int) → List Int) : List (List Char × Node F) → List (String × List (List Int)) → Res (List (List Char × Node F))
  | g, [] => .ok g
  | g, b :: bs =>
    if b.1 = "tetra" then
      match hCreate g " data".toList (.ints (val b.2)) with
      | .error e => .error e
      | .ok g => tetraSets val g bs
    else tetraSets val g bs

/-- A group with one data set. -/
def dataGroup (l : List F) : Node F := .group [(" data".toList, .floats l)]

/-- `write`, /repo/src/meshio/cgns/_cgns.py:44-104. -/
def write (m : In F) : Res (Node F) :=
  match column m 0 with
  | .error e => .error e
  | .ok x =>
    match column m 1 with
    | .error e => .error e
    | .ok y =>
      match column m 2 with
      | .error e => .error e
      | .ok z =>
        match tetraSets (fun rows => [1, (rows.length : Int)]) [] m.cells with
        | .error e => .error e
        | .ok rnge =>
          match tetraSets (fun rows => rows.flatten.map (· + 1)) [] m.cells with
          | .error e => .error e
          | .ok conn =>
            .ok (.group [("Base".toList, .group [("Zone1".toList, .group
              [("GridCoordinates".toList, .group
                [("CoordinateX".toList, dataGroup x), ("CoordinateY".toList, dataGroup y), ("CoordinateZ".toList, dataGroup z)]),
               ("GridElements".toList, .group [("ElementRange".toList, .group rnge), ("ElementConnectivity".toList, .group conn)])])])])

end Meshio.Cgns
