/-
Model of /repo/src/meshio/h5m/_h5m.py.  A file is a record of the groups, data sets and attributes under `tstt`; a group is the list of its members
in the order of creation, `hItems` gives the order in which h5py visits them.  Left out: `history`, `elemtypes`, the types of the tags, compression,
files without the groups and data sets that the writer always creates, names with a path in them.
-/
import Verif.Base.Hdf
import Verif.Base.Num
import Verif.Model.Types
import Verif.Model.Hmf

namespace Meshio.H5m
open Types

/-- An array of point data: one axis, two axes, or more. -/
inductive Arr (F : Type) where
  | ints (l : List Int)
  | vec (l : List F)
  | mat (width : Nat) (rows : List (List F))
  | more
deriving DecidableEq, Repr

/-- A group of elements: the number of the type, the rows with the nodes counted from 1, and the number of the first cell. -/
structure Elem where
  elementType : Nat
  connectivity : List (List Int)
  startId : Nat
deriving DecidableEq, Repr

/-- The file: `tags` is the group of the tags of the nodes, `globalTags` the names of the members of `tstt/tags`, which are all of class 2. -/
structure File (F : Type) where
  coordinates : List (List F)
  startId : Nat
  tags : Option (List (List Char × Arr F))
  globalTags : List (List Char × Nat)
  elements : List (List Char × Elem)
  maxId : Nat
deriving DecidableEq, Repr

/-- The mesh that is read. -/
structure Mesh (F : Type) where
  points : List (List F)
  cells : List (String × List (List Int))
  pointData : List (List Char × Arr F)
deriving DecidableEq, Repr

/-- /repo/src/meshio/h5m/_h5m.py:43-51 -/
def h5mToMeshio : List (String × String) :=
  [("Edge2", "line"), ("Hex8", "hexahedron"), ("Prism6", "wedge"), ("Pyramid5", "pyramid"), ("Quad4", "quad"), ("Tri3", "triangle"), ("Tet4", "tetra")]

variable {F : Type}

/-- One group of elements, /repo/src/meshio/h5m/_h5m.py:54-58. -/
def readElem (e : List Char × Elem) : Res (String × List (List Int)) :=
  match find h5mToMeshio (String.ofList e.1) with
  | none => .error .keyError
  | some t => .ok (t, e.2.connectivity.map fun r => r.map (· - 1))

/-- `read`, /repo/src/meshio/h5m/_h5m.py:23-118. -/
def read (f : File F) : Res (Mesh F) :=
  match mapRes readElem (hItems f.elements) with
  | .error e => .error e
  | .ok cells => .ok ⟨f.coordinates, cells, match f.tags with | some l => hItems l | none => []⟩

/-- /repo/src/meshio/h5m/_h5m.py:221-225 -/
def meshioToH5m : List (String × String × Nat) := [("line", "Edge2", 1), ("triangle", "Tri3", 2), ("tetra", "Tet4", 5)]

/-- What is written: cell data are lists with one array for each block, of which only the number matters. -/
structure In (F : Type) where
  points : List (List F)
  cells : List (String × List (List Int))
  pointData : List (List Char × Arr F)
  cellData : List (List Char × Nat)

/-- `pd["GLOBAL_ID"] = np.arange(1, len(mesh.points) + 1)`, /repo/src/meshio/h5m/_h5m.py:149-151. -/
def withIds (ids : Bool) (m : In F) : List (List Char × Arr F) :=
  if "GLOBAL_ID".toList ∉ m.pointData.map (·.1) ∧ ids then
    m.pointData ++ [("GLOBAL_ID".toList, .ints ((List.range m.points.length).map fun i => ((i + 1 : Nat) : Int)))]
  else m.pointData

/-- One tag, /repo/src/meshio/h5m/_h5m.py:156-195: arrays with more than two axes are a ValueError when the shape is unpacked. -/
def putTag (g : List (List Char × Arr F) × List (List Char × Nat)) (e : List Char × Arr F) : Res (List (List Char × Arr F) × List (List Char × Nat)) :=
  if ¬ Hmf.plainName e.1 then .error .unmodelled
  else
    match e.2 with
    | .more => .error .valueError
    | a =>
      match hCreate g.1 e.1 a with
      | .error e => .error e
      | .ok g1 =>
        match hCreate g.2 e.1 2 with
        | .error e => .error e
        | .ok g2 => .ok (g1, g2)

/-- The loop over the blocks, /repo/src/meshio/h5m/_h5m.py:226-245: the groups and the next number. -/
def putBlocks : List (List Char × Elem) → Nat → List (String × List (List Int)) → Res (List (List Char × Elem) × Nat)
  | g, next, [] => .ok (g, next)
  | g, next, b :: bs =>
    match find meshioToH5m b.1 with
    | none => putBlocks g next bs
    | some (name, type) =>
      match hCreate g name.toList ⟨type, b.2.map fun r => r.map (· + 1), next⟩ with
      | .error e => .error e
      | .ok g => putBlocks g (next + b.2.length) bs

/-- The loop over the cell data, /repo/src/meshio/h5m/_h5m.py:248-257: the data of a name is a list, which has no `items`; `elem_group` is not
bound if no block was written. -/
def putCellData (written : Bool) : List (List Char × Nat) → Res Unit
  | [] => .ok ()
  | d :: ds => if d.2 = 0 then putCellData written ds else if written then .error .attributeError else .error .unboundLocal

/-- `write`, /repo/src/meshio/h5m/_h5m.py:121-265. -/
def write (ids : Bool) (m : In F) : Res (File F) :=
  match foldRes putTag ([], []) (withIds ids m) with
  | .error e => .error e
  | .ok (tags, globalTags) =>
    match putBlocks [] (1 + m.points.length) m.cells with
    | .error e => .error e
    | .ok (elements, next) =>
      match putCellData (!elements.isEmpty) m.cellData with
      | .error e => .error e
      | .ok _ => .ok ⟨m.points, 1, if withIds ids m = [] then none else some tags, globalTags, elements, next⟩

end Meshio.H5m
