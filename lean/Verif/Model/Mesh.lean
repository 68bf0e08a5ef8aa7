/-
Model of /repo/src/meshio/_mesh.py: cell blocks, meshes, views and the
conversions between sets and integer data.
-/
import Verif.Model.Common
import Verif.Base.Num

namespace Meshio

/-- `topological_dimension`, /repo/src/meshio/_mesh.py:10-82 (same order). -/
def topologicalDimension : Dict Nat :=
  [("line", 1), ("polygon", 2), ("triangle", 2), ("quad", 2), ("tetra", 3), ("hexahedron", 3),
   ("wedge", 3), ("pyramid", 3), ("line3", 1), ("triangle6", 2), ("quad9", 2), ("tetra10", 3),
   ("hexahedron27", 3), ("wedge18", 3), ("pyramid14", 3), ("vertex", 0), ("quad8", 2),
   ("hexahedron20", 3), ("triangle10", 2), ("triangle15", 2), ("triangle21", 2), ("line4", 1),
   ("line5", 1), ("line6", 1), ("tetra20", 3), ("tetra35", 3), ("tetra56", 3), ("quad16", 2),
   ("quad25", 2), ("quad36", 2), ("triangle28", 2), ("triangle36", 2), ("triangle45", 2),
   ("triangle55", 2), ("triangle66", 2), ("quad49", 2), ("quad64", 2), ("quad81", 2),
   ("quad100", 2), ("quad121", 2), ("line7", 1), ("line8", 1), ("line9", 1), ("line10", 1),
   ("line11", 1), ("tetra84", 3), ("tetra120", 3), ("tetra165", 3), ("tetra220", 3),
   ("tetra286", 3), ("wedge40", 3), ("wedge75", 3), ("hexahedron64", 3), ("hexahedron125", 3),
   ("hexahedron216", 3), ("hexahedron343", 3), ("hexahedron512", 3), ("hexahedron729", 3),
   ("hexahedron1000", 3), ("wedge126", 3), ("wedge196", 3), ("wedge288", 3), ("wedge405", 3),
   ("wedge550", 3), ("VTK_LAGRANGE_CURVE", 1), ("VTK_LAGRANGE_TRIANGLE", 2),
   ("VTK_LAGRANGE_QUADRILATERAL", 2), ("VTK_LAGRANGE_TETRAHEDRON", 3),
   ("VTK_LAGRANGE_HEXAHEDRON", 3), ("VTK_LAGRANGE_WEDGE", 3), ("VTK_LAGRANGE_PYRAMID", 3)]

/-- One entry along axis 0 of a data array: an integer scalar, or anything else
(float, vector, ...), which stays opaque. -/
inductive Val (R : Type) where
  | int (i : Int)
  | other (r : R)
deriving DecidableEq, Repr

/-- A numpy data array.  `isInt` is `dtype.kind in ["i", "u"]`. -/
structure DataArr (R : Type) where
  isInt : Bool
  arr : NArr (Val R)
deriving DecidableEq, Repr

/-- `len(a)` -/
def DataArr.len {R : Type} (a : DataArr R) : Nat := a.arr.len

/-- `np.array(xs, dtype=int)` for a list of integers. -/
def intArr {R : Type} (xs : List Int) : DataArr R := ⟨true, ⟨[], xs.map .int⟩⟩

/-- `CellBlock`, /repo/src/meshio/_mesh.py:85-113.  `tags` is left out. Rows are
integer node numbers; the nested face lists of polyhedra are modelled with the
VTU format only. -/
structure CellBlock where
  type : String
  data : NArr (List Int)
deriving DecidableEq, Repr

/-- `len(cell_block)`, /repo/src/meshio/_mesh.py:112-113 -/
def CellBlock.len (c : CellBlock) : Nat := c.data.len

/-- `s.startswith(p)` -/
def startsWith (p s : String) : Bool := p.toList.isPrefixOf s.toList

/-- `CellBlock.__init__`, /repo/src/meshio/_mesh.py:85-101: the dimension lookup
raises KeyError for types missing in the table. Returns the block and its `dim`. -/
def CellBlock.new (t : String) (data : NArr (List Int)) : Res (CellBlock × Nat) :=
  if startsWith "polyhedron" t then .ok (⟨t, data⟩, 3)
  else
    match topologicalDimension.get? t with
    | none => .error .keyError
    | some d => .ok (⟨t, data⟩, d)

/-- `Mesh` objects, /repo/src/meshio/_mesh.py:116-187.  `P` is the type of a point
row, `R` of an opaque data entry.  Set members are indices (negative Python
indices are not modelled); a member list entry `none` is Python's `None`.
`field_data`, `gmsh_periodic` and `info` are left out here. -/
structure Mesh (P R : Type) where
  points : List P
  cells : List CellBlock
  pointData : Dict (DataArr R)
  cellData : Dict (List (DataArr R))
  pointSets : Dict (List Nat)
  cellSets : Dict (List (Option (List Nat)))
deriving DecidableEq, Repr

variable {P R : Type}

/-- The loop over `point_data`, /repo/src/meshio/_mesh.py:162-169. -/
def checkPointData (n : Nat) : Dict (DataArr R) → Res Unit
  | [] => .ok ()
  | (_, a) :: d => if a.len ≠ n then .error .valueError else checkPointData n d

/-- The inner loop `for k in range(len(data))`, /repo/src/meshio/_mesh.py:179-187. -/
def checkBlockLens : List (DataArr R) → List CellBlock → Res Unit
  | [], _ => .ok ()
  | _ :: _, [] => .error .indexError
  | a :: l, c :: cs => if a.len ≠ c.len then .error .valueError else checkBlockLens l cs

/-- The loop over `cell_data`, /repo/src/meshio/_mesh.py:171-187. -/
def checkCellData (cells : List CellBlock) : Dict (List (DataArr R)) → Res Unit
  | [] => .ok ()
  | (_, l) :: d =>
    if l.length ≠ cells.length then .error .valueError
    else
      match checkBlockLens l cells with
      | .error e => .error e
      | .ok () => checkCellData cells d

/-- `Mesh.__init__`, /repo/src/meshio/_mesh.py:117-187, called with a list of
`(type, array)` tuples (a dict argument is turned into that list first, line 140). -/
def Mesh.new (points : List P) (cells : List (String × NArr (List Int)))
    (pointData : Dict (DataArr R)) (cellData : Dict (List (DataArr R)))
    (pointSets : Dict (List Nat)) (cellSets : Dict (List (Option (List Nat)))) :
    Res (Mesh P R) :=
  match mapRes (fun c => CellBlock.new c.1 c.2) cells with
  | .error e => .error e
  | .ok blocks =>
    match checkPointData points.length pointData with
    | .error e => .error e
    | .ok () =>
      match checkCellData (blocks.map (·.1)) cellData with
      | .error e => .error e
      | .ok () => .ok ⟨points, blocks.map (·.1), pointData, cellData, pointSets, cellSets⟩

/-- `Mesh.copy`, /repo/src/meshio/_mesh.py:234-235 (values are immutable here). -/
def Mesh.copy (m : Mesh P R) : Mesh P R := m

/-- `Mesh.get_cells_type`, /repo/src/meshio/_mesh.py:243-246. -/
def Mesh.getCellsType (m : Mesh P R) (t : String) : Res (NArr (List Int)) :=
  if !(m.cells.any (fun c => c.type == t)) then
    match numNodesPerCell.get? t with
    | none => .error .keyError
    | some k => .ok ⟨[k], []⟩
  else npConcat ((m.cells.filter (fun c => c.type == t)).map (·.data))

/-- `Mesh.get_cell_data`, /repo/src/meshio/_mesh.py:248-251. -/
def Mesh.getCellData (m : Mesh P R) (name t : String) : Res (NArr (Val R)) :=
  match m.cellData.get? name with
  | none => .error .keyError
  | some l => npConcat (((m.cells.zip l).filter (fun cd => cd.1.type == t)).map (·.2.arr))

/-- `if t not in d: d[t] = []` followed by `d[t].append(v)`. -/
def Dict.append {β : Type} (d : Dict (List β)) (t : String) (v : β) : Dict (List β) :=
  match d.get? t with
  | none => d.set t [v]
  | some l => d.set t (l ++ [v])

/-- The grouping loop shared by `cells_dict` and `cell_data_dict`,
/repo/src/meshio/_mesh.py:255-259 and 270-273. -/
def groupTypes {β : Type} (l : List (String × β)) : Dict (List β) :=
  l.foldl (fun d tv => d.append tv.1 tv.2) []

/-- The concatenation loop, /repo/src/meshio/_mesh.py:261-262 and 275-276. -/
def concatAll {ρ : Type} : Dict (List (NArr ρ)) → Res (Dict (NArr ρ))
  | [] => .ok []
  | (t, l) :: d =>
    match npConcat l with
    | .error e => .error e
    | .ok a =>
      match concatAll d with
      | .error e => .error e
      | .ok r => .ok ((t, a) :: r)

/-- `Mesh.cells_dict`, /repo/src/meshio/_mesh.py:253-263. -/
def Mesh.cellsDict (m : Mesh P R) : Res (Dict (NArr (List Int))) :=
  concatAll (groupTypes (m.cells.map (fun c => (c.type, c.data))))

/-- One entry of `Mesh.cell_data_dict`, /repo/src/meshio/_mesh.py:268-276. -/
def cellDataDictEntry (cells : List CellBlock) (l : List (DataArr R)) :
    Res (Dict (NArr (Val R))) :=
  concatAll (groupTypes ((l.zip cells).map (fun vc => (vc.2.type, vc.1.arr))))

/-- `{key: f(value) for key, value in d.items()}` where `f` may raise. -/
def Dict.mapValues {α β : Type} (f : α → Res β) (d : Dict α) : Res (Dict β) :=
  mapRes (fun kl =>
    match f kl.2 with
    | .error e => .error e
    | .ok b => .ok (kl.1, b)) d

/-- `Mesh.cell_data_dict`, /repo/src/meshio/_mesh.py:265-277. -/
def Mesh.cellDataDict (m : Mesh P R) : Res (Dict (Dict (NArr (Val R)))) :=
  Dict.mapValues (cellDataDictEntry m.cells) m.cellData

/-- State of the loop of `cell_sets_dict`: offsets per type and collected members. -/
abbrev SetsAcc := Dict Nat × Dict (List (List Nat))

/-- One step of the inner loop, /repo/src/meshio/_mesh.py:285-297. -/
def cellSetsStep (acc : SetsAcc) (mc : Option (List Nat) × CellBlock) : SetsAcc :=
  match mc.1 with
  | none => acc
  | some members =>
    match acc.1.get? mc.2.type with
    | some offset =>
      (acc.1.set mc.2.type (offset + mc.2.len),
       acc.2.append mc.2.type (members.map (· + offset)))
    | none =>
      (acc.1.set mc.2.type mc.2.len, acc.2.append mc.2.type (members.map (· + 0)))

/-- One entry of `cell_sets_dict`, /repo/src/meshio/_mesh.py:282-305: empty
per-type selections are dropped, the others concatenated. -/
def cellSetsEntry (cells : List CellBlock) (ml : List (Option (List Nat))) :
    Dict (List Nat) :=
  let sets := ((ml.zip cells).foldl cellSetsStep ([], [])).2
  (sets.filter (fun tm => tm.2.flatten.length ≠ 0)).map (fun tm => (tm.1, tm.2.flatten))

/-- `Mesh.cell_sets_dict`, /repo/src/meshio/_mesh.py:279-305. -/
def Mesh.cellSetsDict (m : Mesh P R) : Dict (Dict (List Nat)) :=
  m.cellSets.map (fun km => (km.1, cellSetsEntry m.cells km.2))

/-- `zip(*lists)` -/
def zipStar {α : Type} : List (List α) → List (List α)
  | [] => []
  | [l] => l.map (fun x => [x])
  | l :: l' :: ls => List.zipWith (· :: ·) l (zipStar (l' :: ls))

/-- `arr[idx] = v` with an index array: IndexError if an index is out of range. -/
def assignAt (arr : List Int) (idx : List Nat) (v : Int) : Res (List Int) :=
  if idx.all (· < arr.length) then .ok (idx.foldl (fun a i => a.set i v) arr)
  else .error .indexError

/-- The loop `for i, cc in enumerate(c)`, /repo/src/meshio/_mesh.py:325-328. -/
def tagLoop (arr : List Int) (i : Nat) : List (Option (List Nat)) → Res (List Int)
  | [] => .ok arr
  | none :: l => tagLoop arr (i + 1) l
  | some cc :: l =>
    match assignAt arr cc i with
    | .error e => .error e
    | .ok arr' => tagLoop arr' (i + 1) l

/-- The loop over blocks, /repo/src/meshio/_mesh.py:322-329; `self.cells[k]` raises
IndexError if the sets have more members than there are blocks. -/
def tagBlocks : List CellBlock → List (List (Option (List Nat))) → Res (List (List Int))
  | _, [] => .ok []
  | [], _ :: _ => .error .indexError
  | c :: cs, ms :: r =>
    match tagLoop (List.replicate c.len (-1)) 0 ms with
    | .error e => .error e
    | .ok arr =>
      match tagBlocks cs r with
      | .error e => .error e
      | .ok rest => .ok (arr :: rest)

/-- `sep.join(strings)` for a separator string. -/
def pyJoinS (sep : String) : List String → String
  | [] => ""
  | [a] => a
  | a :: b :: r => a ++ sep ++ pyJoinS sep (b :: r)

/-- `Mesh.cell_sets_to_data`, /repo/src/meshio/_mesh.py:316-343 (the warning has no
observable effect on the mesh). -/
def Mesh.cellSetsToData (m : Mesh P R) (dataName : Option String) : Res (Mesh P R) :=
  if m.cellSets.length > 0 then
    match tagBlocks m.cells (zipStar m.cellSets.values) with
    | .error e => .error e
    | .ok intfun =>
      let name := match dataName with
        | none => pyJoinS "-" m.cellSets.keys
        | some n => n
      .ok { m with cellData := m.cellData.set name (intfun.map intArr), cellSets := [] }
  else .ok m

/-- The loop of `point_sets_to_data`, /repo/src/meshio/_mesh.py:351-352. -/
def tagPoints (arr : List Int) (i : Nat) : List (List Nat) → Res (List Int)
  | [] => .ok arr
  | cc :: l =>
    match assignAt arr cc i with
    | .error e => .error e
    | .ok arr' => tagPoints arr' (i + 1) l

/-- `Mesh.point_sets_to_data`, /repo/src/meshio/_mesh.py:345-362. -/
def Mesh.pointSetsToData (m : Mesh P R) (joinChar : String) : Res (Mesh P R) :=
  if m.pointSets.length > 0 then
    match tagPoints (List.replicate m.points.length (-1)) 0 m.pointSets.values with
    | .error e => .error e
    | .ok intfun =>
      .ok { m with
        pointData := m.pointData.set (pyJoinS joinChar m.pointSets.keys) (intArr intfun)
        pointSets := [] }
  else .ok m

/-- Insert into a strictly increasing list. -/
def insertUnique (x : Int) : List Int → List Int
  | [] => [x]
  | y :: l => if x < y then x :: y :: l else if x = y then y :: l else y :: insertUnique x l

/-- `np.unique` on integers: the sorted distinct values. -/
def npUnique (l : List Int) : List Int := l.foldr insertUnique []

/-- The integer in an integer entry. -/
def Val.toInt? : Val R → Option Int
  | .int i => some i
  | .other _ => none

/-- `np.where(d == tag)[0]` -/
def npWhere (d : List (Val R)) (tag : Int) : List Nat :=
  (d.zipIdx.filter (fun p => p.1.toInt? == some tag)).map (·.2)

/-- `list(dict.fromkeys(l))`: drop later duplicates. -/
def dedup (l : List String) : List String :=
  l.foldl (fun acc x => if x ∈ acc then acc else acc ++ [x]) []

/-- The choice of set names, /repo/src/meshio/_mesh.py:379-385 and 407-413.
`alt` is the prefix of the alternative names. -/
def setNames (alt key : String) (tags : List Int) : List String :=
  let names := dedup (pySplit '-' key)
  if names.length ≠ tags.length then tags.map (fun t => alt ++ strInt t) else names

/-- `Mesh.cell_data_to_sets`, /repo/src/meshio/_mesh.py:367-393.  Multi-column
integer arrays are left out (`unmodelled`). -/
def Mesh.cellDataToSets (m : Mesh P R) (key : String) : Res (Mesh P R) :=
  match m.cellData.get? key with
  | none => .error .keyError
  | some data =>
    if !(data.all (·.isInt)) then .error .runtimeError
    else
      match npConcat (data.map (·.arr)) with
      | .error e => .error e
      | .ok a =>
        if a.tail ≠ [] then .error .unmodelled
        else
          let tags := npUnique (a.rows.filterMap Val.toInt?)
          let names := setNames ("set-" ++ key ++ "-") key tags
          .ok { m with
            cellSets := (names.zip tags).foldl
              (fun s nt => s.set nt.1 (data.map (fun d => some (npWhere d.arr.rows nt.2))))
              m.cellSets
            cellData := m.cellData.erase key }

/-- `Mesh.point_data_to_sets`, /repo/src/meshio/_mesh.py:395-421.  The alternative
names really are `set-key-…` with the word "key" (line 413). -/
def Mesh.pointDataToSets (m : Mesh P R) (key : String) : Res (Mesh P R) :=
  match m.pointData.get? key with
  | none => .error .keyError
  | some data =>
    if !data.isInt && data.len ≠ 0 then .error .runtimeError
    else if data.arr.tail ≠ [] then .error .unmodelled
    else
      let tags := npUnique (data.arr.rows.filterMap Val.toInt?)
      let names := setNames "set-key-" key tags
      .ok { m with
        pointSets := (names.zip tags).foldl
          (fun s nt => s.set nt.1 (npWhere data.arr.rows nt.2)) m.pointSets
        pointData := m.pointData.erase key }

end Meshio
