/-
DOLFIN XML files: /repo/src/meshio/dolfin/_dolfin.py.
-/
import Verif.Base.Xml
import Verif.Base.Dict
namespace Meshio
namespace Dolfin

variable {F : Type}

/-- `elem.attrib[k]` -/
def attrOf (as : List (String × String)) (k : String) : Res String :=
  match as.find? fun a => a.1 == k with
  | some a => .ok a.2
  | none => .error .keyError

/-- A number from a text, as `int` and numpy's assignment of strings do (surrounding blanks are not accepted here). -/
def num {α : Type} (parse : List Char → Option α) (s : String) : Res α :=
  match parse s.toList with
  | some x => .ok x
  | none => .error .valueError

/-- `int(elem.attrib[k])` -/
def intAttr (as : List (String × String)) (k : String) : Res Int :=
  match attrOf as k with
  | .error e => .error e
  | .ok s => num parseInt s

/-- `np.empty((n, w))`: the entries are `none` until they are set. -/
def empty {α : Type} (n w : Int) : Res (List (List (Option α))) :=
  if n < 0 ∨ w < 0 then .error .valueError else .ok (List.replicate n.toNat (List.replicate w.toNat none))

/-- The position that the index `k` means; negative ones count from the end. -/
def position (n : Nat) (k : Int) : Option Nat :=
  if 0 ≤ k ∧ k < n then some k.toNat else if -n ≤ k ∧ k < 0 then some (k + n).toNat else none

/-- `a[k] = vals`, where `vals` are texts. -/
def setRow {α : Type} (parse : List Char → Option α) (a : List (List (Option α))) (k : Int) (vals : List String) :
    Res (List (List (Option α))) :=
  match position a.length k with
  | none => .error .indexError
  | some i =>
    match mapRes (num parse) vals with
    | .error e => .error e
    | .ok xs => if (a.getD i []).length ≠ xs.length then .error .valueError else .ok (a.set i (xs.map some))

/-- Local variables of `_read_mesh`, /repo/src/meshio/dolfin/_dolfin.py:25-31: `points` with `keys`; `cell_type` with
`num_nodes_per_cell`; `cells` as type and rows (`cell_tags` is determined by `num_nodes_per_cell`). -/
structure St (F : Type) where
  dim : Option Int
  points : Option (List String × List (List (Option F)))
  ctype : Option (String × Nat)
  cells : Option (String × List (List (Option Int)))
deriving DecidableEq, Repr

/-- `dolfin_to_meshio_type`, /repo/src/meshio/dolfin/_dolfin.py:20. -/
def cellTypes : Dict (String × Nat) := [("triangle", "triangle", 3), ("tetrahedron", "tetra", 4)]

/-- `[f"v{i}" for i in range(n)]`, /repo/src/meshio/dolfin/_dolfin.py:47. -/
def cellTags (n : Nat) : List String := (List.range n).map fun i => String.ofList ('v' :: fmtNat i)

/-- One element, /repo/src/meshio/dolfin/_dolfin.py:36-75 (the warning about unknown tags is left out). -/
def event (fio : FloatIO F) (st : St F) (e : String × List (String × String)) : Res (St F) :=
  if e.1 = "dolfin" then .ok st
  else if e.1 = "mesh" then
    match intAttr e.2 "dim" with
    | .error e => .error e
    | .ok d =>
      match attrOf e.2 "celltype" with
      | .error e => .error e
      | .ok t =>
        match Dict.get? cellTypes t with
        | none => .error .keyError
        | some c => .ok { st with dim := some d, ctype := some c }
  else if e.1 = "vertices" then
    match st.dim with
    | none => .error .readError
    | some d =>
      match intAttr e.2 "size" with
      | .error e => .error e
      | .ok n =>
        match empty n d with
        | .error e => .error e
        | .ok a => .ok { st with points := some (if d = 3 then ["x", "y", "z"] else ["x", "y"], a) }
  else if e.1 = "vertex" then
    match st.points with
    | none => .error .readError
    | some (keys, a) =>
      match intAttr e.2 "index" with
      | .error e => .error e
      | .ok k =>
        match mapRes (attrOf e.2) keys with
        | .error e => .error e
        | .ok vals =>
          match setRow fio.parse a k vals with
          | .error e => .error e
          | .ok a => .ok { st with points := some (keys, a) }
  else if e.1 = "cells" then
    match st.ctype with
    | none => .error .readError
    | some (t, w) =>
      match intAttr e.2 "size" with
      | .error e => .error e
      | .ok n =>
        match empty n w with
        | .error e => .error e
        | .ok a => .ok { st with cells := some (t, a) }
  else if e.1 = "triangle" ∨ e.1 = "tetrahedron" then
    match intAttr e.2 "index" with
    | .error e => .error e
    | .ok k =>
      match st.cells, st.ctype with
      | some (t, a), some (_, w) =>
        match mapRes (attrOf e.2) (cellTags w) with
        | .error e => .error e
        | .ok vals =>
          match setRow parseInt a k vals with
          | .error e => .error e
          | .ok a => .ok { st with cells := some (t, a) }
      | _, _ => .error .assertionError
  else .ok st

/-- The start events of `ET.iterparse`: the elements in the order of their start tags. -/
def events : Xml → List (String × List (String × String))
  | .nil => []
  | .cons t as _ ch r => (t, as) :: (events ch ++ events r)

/-- `_read_mesh`, /repo/src/meshio/dolfin/_dolfin.py:19-79.  The document is parsed as a whole before its elements are looked at; a
document that is not well-formed may therefore raise another exception than this one. -/
def readMesh (fio : FloatIO F) (s : List Char) : Res (St F) :=
  match parseXml s with
  | none => .error .readError
  | some root => foldRes (event fio) ⟨none, none, none, none⟩ ((root.tag, root.attrs) :: events root.children)

/-- An array of cell data, one number for each cell: `ints` with a flag for unsigned types, `floats`, or a type that is neither. -/
inductive Data (α β : Type) where
  | ints (unsigned : Bool) (l : List α)
  | floats (l : List β)
  | other (n : Nat)
deriving DecidableEq, Repr

/-- `len(data)` -/
def Data.len {α β : Type} : Data α β → Nat
  | .ints _ l => l.length
  | .floats l => l.length
  | .other n => n

/-- `data[idx] = value` for all entities, /repo/src/meshio/dolfin/_dolfin.py:116-120. -/
def entities {α : Type} (parse : List Char → Option α) : List (Option α) → List XmlElem → Res (List (Option α))
  | a, [] => .ok a
  | a, e :: es =>
    if e.tag ≠ "entity" then .error .readError
    else
      match intAttr e.attrs "index" with
      | .error e => .error e
      | .ok k =>
        match attrOf e.attrs "value" with
        | .error e => .error e
        | .ok v =>
          match position a.length k with
          | none => .error .indexError
          | some i =>
            match num parse v with
            | .error e => .error e
            | .ok x => entities parse (a.set i (some x)) es

/-- One file with cell data, /repo/src/meshio/dolfin/_dolfin.py:102-120.  (Negative numbers in an array of type `uint` are kept here;
what numpy does with them is not modelled.) -/
def readFunction (fio : FloatIO F) (s : List Char) : Res (Data (Option Int) (Option F)) :=
  match parseXml s with
  | none => .error .readError
  | some root =>
    match root.kids with
    | [f] =>
      if f.tag ≠ "mesh_function" then .error .readError
      else
        match intAttr f.attrs "size" with
        | .error e => .error e
        | .ok n =>
          match attrOf f.attrs "type" with
          | .error e => .error e
          | .ok t =>
            if t = "int" ∨ t = "uint" then
              if n < 0 then .error .valueError
              else
                match entities parseInt (List.replicate n.toNat none) f.kids with
                | .error e => .error e
                | .ok l => .ok (.ints (decide (t = "uint")) l)
            else if t = "float" then
              if n < 0 then .error .valueError
              else
                match entities fio.parse (List.replicate n.toNat none) f.kids with
                | .error e => .error e
                | .ok l => .ok (.floats l)
            else .error .keyError
    | _ => .error .readError

/-- The text before the last dot and the text after it. -/
def splitDot : List Char → Option (List Char × List Char)
  | [] => none
  | c :: s =>
    match splitDot s with
    | some (a, b) => some (c :: a, b)
    | none => if c = '.' then some ([], s) else none

/-- `pathlib.Path(filename).stem` for a file name without directories. -/
def stem (s : List Char) : List Char :=
  match splitDot s with
  | some (a, b) => if a = [] ∨ b = [] then s else a
  | none => s

/-- `os.path.splitext(filename)[0]` for a file name without directories. -/
def splitext (s : List Char) : List Char :=
  match splitDot s with
  | some (a, _) => if a.all (· == '.') then s else a
  | none => s

/-- The characters that mean something in a regular expression, except the dot. -/
def special (c : Char) : Bool := "^$*+?{}[]\\|()".toList.contains c

/-- The base name as a regular expression at the beginning of a file name: a dot stands for any character but a line end.  The result
is what follows. -/
def matchBase : List Char → List Char → Option (List Char)
  | [], s => some s
  | _ :: _, [] => none
  | b :: bs, c :: s => if (b = '.' ∧ c ≠ '\n') ∨ b = c then matchBase bs s else none

/-- `re.match(f"{basename}_([^\\.]+)\\.xml", f)` and its group, /repo/src/meshio/dolfin/_dolfin.py:97-100. -/
def dataName (base f : List Char) : Option (List Char) :=
  match matchBase (base ++ ['_']) f with
  | none => none
  | some s =>
    if s.takeWhile (· ≠ '.') = [] then none
    else if ".xml".toList.isPrefixOf (s.dropWhile (· ≠ '.')) then some (s.takeWhile (· ≠ '.')) else none

/-- The loop over the files of the directory, /repo/src/meshio/dolfin/_dolfin.py:94-124: `dir` are their names and contents in the order
of `os.listdir`. -/
def readCellData (fio : FloatIO F) (base : List Char) : Dict (List (Data (Option Int) (Option F))) → List (String × List Char) →
    Res (Dict (List (Data (Option Int) (Option F))))
  | acc, [] => .ok acc
  | acc, f :: fs =>
    match dataName base f.1.toList with
    | none => readCellData fio base acc fs
    | some name =>
      match readFunction fio f.2 with
      | .error e => .error e
      | .ok d => readCellData fio base (acc.set (String.ofList name) (((Dict.get? acc (String.ofList name)).getD []) ++ [d])) fs

/-- What is read. -/
structure Mesh (F : Type) where
  points : List (List (Option F))
  type : String
  rows : List (List (Option Int))
  cellData : Dict (List (Data (Option Int) (Option F)))
deriving DecidableEq, Repr

/-- `Mesh(points, cells, cell_data=cell_data)` with one block: /repo/src/meshio/_mesh.py:171-187. -/
def checkData (n : Nat) : Dict (List (Data (Option Int) (Option F))) → Res Unit
  | [] => .ok ()
  | (_, l) :: d =>
    match l with
    | [a] => if a.len ≠ n then .error .valueError else checkData n d
    | _ => .error .valueError

/-- `read`, /repo/src/meshio/dolfin/_dolfin.py:129-132: the file `filename` of the directory `dir`.  Base names with characters that are
special in regular expressions and files without `vertices` are left out. -/
def read (fio : FloatIO F) (filename : String) (dir : List (String × List Char)) : Res (Mesh F) :=
  match Dict.get? dir filename with
  | none => .error .fileNotFound
  | some s =>
    match readMesh fio s with
    | .error e => .error e
    | .ok st =>
      if (stem filename.toList).any special then .error .unmodelled
      else
        match readCellData fio (stem filename.toList) [] dir with
        | .error e => .error e
        | .ok cd =>
          match st.cells, st.points with
          | none, _ => .error .typeError
          | some _, none => .error .unmodelled
          | some (t, rows), some (_, pts) =>
            match checkData rows.length cd with
            | .error e => .error e
            | .ok () => .ok ⟨pts, t, rows, cd⟩

/-- A mesh to be written: the number of columns of `points`, the points, the blocks, and the cell data. -/
structure In (F : Type) where
  dim : Nat
  points : List (List F)
  blocks : List (String × List (List Int))
  cellData : Dict (List (Data Int F))
deriving DecidableEq, Repr

/-- `f'{k}="{v}"'` -/
def attr (k v : List Char) : List Char := k ++ ('=' :: '"' :: (v ++ ['"']))

/-- One vertex, /repo/src/meshio/dolfin/_dolfin.py:163-164. -/
def vertexLine (fio : FloatIO F) (i : Nat) (p : List F) : List Char :=
  "      <vertex index=\"".toList ++ fmtNat i ++ "\" ".toList ++
    joinWith ' ' (("xyz".toList.zip p).map fun a => attr [a.1] (fio.fmt a.2)) ++ " />\n".toList

/-- One cell, /repo/src/meshio/dolfin/_dolfin.py:176-177. -/
def cellLine (name : List Char) (i : Nat) (c : List Int) : List Char :=
  "      <".toList ++ name ++ " index=\"".toList ++ fmtNat i ++ "\" ".toList ++
    joinWith ' ' (c.mapIdx fun k v => attr ('v' :: fmtNat k) (fmtInt v)) ++ " />\n".toList

/-- `meshio_to_dolfin_type`, /repo/src/meshio/dolfin/_dolfin.py:138. -/
def typeName (t : String) : List Char := if t = "tetra" then "tetrahedron".toList else "triangle".toList

/-- The text of the mesh, /repo/src/meshio/dolfin/_dolfin.py:155-181. -/
def meshText (fio : FloatIO F) (t : String) (m : In F) : List Char :=
  let rows := (m.blocks.filter fun b => b.1 = t).flatMap (·.2)
  "<dolfin nsmap=\"{'dolfin': 'https://fenicsproject.org/'}\">\n".toList ++
  "  <mesh celltype=\"".toList ++ typeName t ++ "\" dim=\"".toList ++ fmtNat m.dim ++ "\">\n".toList ++
  "    <vertices size=\"".toList ++ fmtNat m.points.length ++ "\">\n".toList ++
  (m.points.mapIdx fun i p => vertexLine fio i p).flatten ++
  "    </vertices>\n".toList ++
  "    <cells size=\"".toList ++ fmtNat rows.length ++ "\">\n".toList ++
  (rows.mapIdx fun i c => cellLine (typeName t) i c).flatten ++
  "    </cells>\n".toList ++
  "  </mesh>\n".toList ++
  "</dolfin>".toList

/-- `_numpy_type_to_dolfin_type`, /repo/src/meshio/dolfin/_dolfin.py:184-195. -/
def dtypeName : Data Int F → Option String
  | .ints false _ => some "int"
  | .ints true _ => some "uint"
  | .floats _ => some "float"
  | .other _ => none

/-- How `repr` prints the entries of an array, which depends on the version of numpy: `1.5` before version 2, `np.float64(1.5)`
since then. -/
structure Repr (F : Type) where
  int : Int → List Char
  float : F → List Char

/-- The texts of the values, /repo/src/meshio/dolfin/_dolfin.py:209-210. -/
def reprs (r : Repr F) : Data Int F → List (List Char)
  | .ints _ l => l.map r.int
  | .floats l => l.map r.float
  | .other _ => []

/-- The elements `entity`, /repo/src/meshio/dolfin/_dolfin.py:209-210, as `ET` writes them.  Values that need escaping do not occur. -/
def entityText (i : Nat) (v : List Char) : List Char :=
  "<entity index=\"".toList ++ fmtNat i ++ "\" value=\"".toList ++ v ++ "\" />".toList

/-- `_write_cell_data`, /repo/src/meshio/dolfin/_dolfin.py:198-213, with the format that `ElementTree.write` has. -/
def dataText (r : Repr F) (dim : Nat) (d : Data Int F) : Res (List Char) :=
  match dtypeName d with
  | none => .error .writeError
  | some t =>
    let head := "<dolfin nsmap=\"{'dolfin': 'https://fenicsproject.org/'}\"><mesh_function type=\"".toList ++ t.toList ++
      "\" dim=\"".toList ++ fmtNat dim ++ "\" size=\"".toList ++ fmtNat d.len ++ ['"']
    if d.len = 0 then .ok (head ++ " /></dolfin>".toList)
    else .ok (head ++ ['>'] ++ ((reprs r d).mapIdx entityText).flatten ++ "</mesh_function></dolfin>".toList)

/-- The files that are written, in order, and the exception if one is raised. -/
abbrev Written := List (String × List Char) × Option Err

/-- The loop over the cell data, /repo/src/meshio/dolfin/_dolfin.py:231-236. -/
def dataFiles (r : Repr F) (base : List Char) (dim : Nat) : List (String × Data Int F) → Written
  | [] => ([], none)
  | (n, d) :: l =>
    match dataText r dim d with
    | .error e => ([], some e)
    | .ok s =>
      let w := dataFiles r base dim l
      ((String.ofList (base ++ '_' :: (n.toList ++ ".xml".toList)), s) :: w.1, w.2)

/-- `write`, /repo/src/meshio/dolfin/_dolfin.py:216-236, 140-149; `zero x` says that `x == 0`.  The file name has no directories. -/
def write (fio : FloatIO F) (r : Repr F) (zero : F → Bool) (filename : String) (m : In F) : Written :=
  let t := if m.blocks.any (fun b => b.1 = "tetra") then "tetra" else "triangle"
  if !(m.blocks.any fun b => b.1 = t) then ([], some .writeError)
  else if m.dim ≠ 2 ∧ m.dim ≠ 3 then ([], some .writeError)
  else
    let dim := if m.dim = 2 ∨ m.points.all (fun p => (p[2]?).all zero) then 2 else 3
    let w := dataFiles r (splitext filename.toList) dim (m.cellData.flatMap fun nl => nl.2.map fun d => (nl.1, d))
    ((filename, meshText fio t m) :: w.1, w.2)

/-- Writing files into a directory: a file that exists is overwritten. -/
def store (dir : List (String × List Char)) (files : List (String × List Char)) : List (String × List Char) :=
  files.foldl (fun d f => Dict.set d f.1 f.2) dir

end Dolfin
end Meshio
