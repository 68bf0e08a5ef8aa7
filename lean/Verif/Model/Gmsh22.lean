/-
Gmsh files of version 2.2: /repo/src/meshio/gmsh/_gmsh22.py.

Numbers are unbounded in text files: overflow of numpy's 32-bit integers is left out.
-/
import Verif.Model.Gmsh
import Verif.Base.Runs
import Verif.Model.Dim

namespace Meshio
namespace Gmsh22
open Types Tables Gmsh

variable {F : Type}

/-- A periodic link: dimension, entities, affine map, pairs of nodes. -/
structure Periodic (F : Type) where
  dim : Int
  slave : Int
  master : Int
  affine : Option (List F)
  pairs : List (Int × Int)
deriving DecidableEq

/-- What is collected while the sections are read. -/
structure St (F : Type) where
  points : List (List F) := []
  pointTags : Option (List Int) := none
  cells : List (String × List (List Int)) := []
  /-- `cell_tags`: by name of the tag and type of cell -/
  tags : Dict (Dict (List Int)) := []
  fieldData : Dict (Int × Int) := []
  pointData : Dict (NArr (List F)) := []
  cellDataRaw : Dict (NArr (List F)) := []
  periodic : Option (List (Periodic F)) := none
deriving DecidableEq

/-- `_read_nodes`, /repo/src/meshio/gmsh/_gmsh22.py:100-119.  In text files the numbers of the nodes are read as floats.  A
negative number of nodes is left out. -/
def readNodes (io : GmshFloat F) (ascii : Bool) (s : List Char) : Res ((List (List F) × List Int) × List Char) :=
  match intLine s with
  | .error e => .error e
  | .ok (n, s) =>
    if n < 0 then .error .unmodelled
    else if ascii then
      match reshape n.toNat 4 (scan io.parse (n.toNat * 4) s).1 with
      | .error e => .error e
      | .ok rows =>
        .ok ((rows.map (·.drop 1), rows.flatMap fun r => (r.take 1).map io.toInt),
          fastForward "Nodes".toList (scan io.parse (n.toNat * 4) s).2)
    else
      match readRecords io n.toNat 3 s with
      | .error e => .error e
      | .ok (rows, s) => .ok ((rows, (List.range n.toNat).map fun (i : Nat) => (1 + i : Int)), fastForward "Nodes".toList s)

/-- What is collected of the elements: blocks, and lists of tags by type. -/
abbrev Elems := List (String × List (List Int)) × Dict (List (List Int))

/-- `cell_tags[t].append(tags)` -/
def addTags (d : Dict (List (List Int))) (t : String) (tags : List (List Int)) : Dict (List (List Int)) :=
  Dict.set d t ((Dict.get? d t).getD [] ++ tags)

/-- One element of a text file, /repo/src/meshio/gmsh/_gmsh22.py:172-197.  Negative numbers of tags are left out. -/
def readElem (st : Elems) (line : List Char) : Res Elems :=
  match mapRes toInt (splitWs line) with
  | .error e => .error e
  | .ok data =>
    match data[1]? with
    | none => .error .indexError
    | some code =>
      match find gmshToMeshio code.toNat, decide (0 ≤ code) with
      | some t, true =>
        match find numNodesPerCell t with
        | none => .error .keyError
        | some n =>
          match data[2]? with
          | none => .error .indexError
          | some k =>
            if k < 0 then .error .unmodelled
            else .ok (pushTyped st.1 (t, data.drop (data.length - n)), addTags st.2 t [pySlice data 3 (3 + k.toNat)])
      | _, _ => .error .keyError

/-- `_read_cells_ascii`, /repo/src/meshio/gmsh/_gmsh22.py:171-204: a loop over the lines. -/
def readElemsText : Nat → Elems → List Char → Res (Elems × List Char)
  | 0, st, s => .ok (st, s)
  | n + 1, st, s =>
    match readElem st (readLine s).1 with
    | .error e => .error e
    | .ok st => readElemsText n st (readLine s).2

/-- `cells[-1][1].append(rows)`, or a new block. -/
def pushRows (st : List (String × List (List Int))) (t : String) (rows : List (List Int)) : List (String × List (List Int)) :=
  pushBy (fun b a => b.1 = a.1) (fun b a => (b.1, b.2 ++ a.2)) (fun a => a) st (t, rows)

/-- `_read_cells_binary`, /repo/src/meshio/gmsh/_gmsh22.py:207-236: a loop over the headers; it ends as the file does.
Negative numbers are left out; so are lists of tags of different length for the same type, which `np.vstack` refuses, see
`readCells`. -/
def readElemsBin : Nat → Int → Elems → List Char → Res (Elems × List Char)
  | 0, _, _, _ => .error .eofLoop
  | fuel + 1, todo, st, s =>
    if todo ≤ 0 then .ok (st, s)
    else
      match getInts 4 3 s with
      | ([code, n, k], s) =>
        match find gmshToMeshio code.toNat, decide (0 ≤ code) with
        | some t, true =>
          match find numNodesPerCell t with
          | none => .error .keyError
          | some w =>
            if n < 0 ∨ k < 0 then .error .unmodelled
            else
              match reshape n.toNat (1 + k.toNat + w) (getInts 4 (n.toNat * (1 + k.toNat + w)) s).1 with
              | .error e => .error e
              | .ok rows =>
                readElemsBin fuel (todo - n)
                  (pushRows st.1 t (rows.map fun r => r.drop (1 + k.toNat)),
                   addTags st.2 t (rows.map fun r => (r.drop 1).take k.toNat))
                  (getInts 4 (n.toNat * (1 + k.toNat + w)) s).2
        | _, _ => .error .keyError
      | _ => .error .valueError

/-- `a[i] = v`; negative positions count from the end. -/
def putAt (a : List Int) (iv : Int × Int) : Res (List Int) :=
  if 0 ≤ iv.1 then
    if iv.1.toNat < a.length then .ok (a.set iv.1.toNat iv.2) else .error .indexError
  else if -(a.length : Int) ≤ iv.1 then .ok (a.set (iv.1 + a.length).toNat iv.2)
  else .error .indexError

/-- `np.max`, of a list that is not empty. -/
def maxOf : List Int → Int
  | [] => 0
  | [a] => a
  | a :: b :: l => max a (maxOf (b :: l))

/-- The table from numbers of nodes to positions, /repo/src/meshio/gmsh/_gmsh22.py:136-138.  Negative sizes are a ValueError. -/
def remapTable (tags : List Int) : Res (List Int) :=
  if tags = [] then .error .valueError
  else if maxOf (tags.map (· - 1)) + 1 < 0 then .error .valueError
  else
    foldRes putAt (List.replicate (maxOf (tags.map (· - 1)) + 1).toNat (-1))
      ((tags.map (· - 1)).zipIdx.map fun ti => (ti.1, (ti.2 : Int)))

/-- Rows of a block: `np.array` of rows of equal length, minus one, in meshio's order, remapped;
/repo/src/meshio/gmsh/_gmsh22.py:133-141,201-202. -/
def finishBlock (table : List Int) (b : String × List (List Int)) : Res (String × List (List Int)) :=
  if b.2.all (fun r => decide (r.length = (b.2.headD []).length)) then
    match mapRes (fun r => reorder gmshMeshioOrdering b.1 (r.map (· - 1))) b.2 with
    | .error e => .error e
    | .ok rows =>
      match mapRes (mapRes (npIndex table)) rows with
      | .error e => .error e
      | .ok rows => .ok (b.1, rows)
  else .error .valueError

/-- The `i`-th tags that exist, /repo/src/meshio/gmsh/_gmsh22.py:149-153. -/
def tagsAt (i : Nat) (l : List (List Int)) : List Int := l.filterMap fun item => item[i]?

/-- The tags of a name by type; types without tags, and names without types, are left out,
/repo/src/meshio/gmsh/_gmsh22.py:145-166. -/
def outputTags (d : Dict (List (List Int))) : Dict (Dict (List Int)) :=
  [("gmsh:physical", 0), ("gmsh:geometrical", 1)].filterMap fun ni =>
    let l : Dict (List Int) := d.filterMap fun kv => if tagsAt ni.2 kv.2 = [] then none else some (kv.1, tagsAt ni.2 kv.2)
    if l = [] then none else some (ni.1, l)

/-- `_read_cells`, /repo/src/meshio/gmsh/_gmsh22.py:122-168.  Without nodes before the elements, `np.asarray(None)` is a
TypeError.  A second section of elements is left out. -/
def readCells (ascii : Bool) (st : St F) (s : List Char) : Res (St F × List Char) :=
  if st.cells ≠ [] then .error .unmodelled
  else
  match intLine s with
  | .error e => .error e
  | .ok (n, s) =>
    match (if ascii then readElemsText n.toNat (st.cells, []) s else readElemsBin (s.length + 1) n (st.cells, []) s) with
    | .error e => .error e
    | .ok (el, s) =>
      if ascii = false ∧ el.2.any (fun kv => kv.2.any fun r => decide (r.length ≠ (kv.2.headD []).length)) then .error .valueError
      else
        match st.pointTags with
        | none => .error .typeError
        | some tags =>
          match remapTable tags with
          | .error e => .error e
          | .ok table =>
            match mapRes (finishBlock table) el.1 with
            | .error e => .error e
            | .ok cells => .ok ({ st with cells := cells, tags := outputTags el.2 }, fastForward "Elements".toList s)

/-- Two integers on a line, `(int(s) for s in line.split())`. -/
def pairLine (line : List Char) : Res (Int × Int) :=
  match mapRes toInt (splitWs line) with
  | .error e => .error e
  | .ok [a, b] => .ok (a - 1, b - 1)
  | .ok _ => .error .valueError

/-- `np.fromstring(s, float, sep=" ")`; text that is not numbers is left out. -/
def floats (parse : List Char → Option F) (s : List Char) : Res (List F) :=
  mapRes (fun t => match parse t with
    | some x => .ok x
    | none => .error .unmodelled) (splitWs s)

/-- One periodic link, /repo/src/meshio/gmsh/_gmsh22.py:242-259. -/
def readLink (io : GmshFloat F) (s : List Char) : Res (Periodic F × List Char) :=
  match mapRes toInt (splitWs (readLine s).1) with
  | .error e => .error e
  | .ok [dim, slave, master] =>
    let s1 := (readLine s).2
    let line := strip (readLine s1).1
    if "Affine".toList.isPrefixOf line then
      match floats io.parse (line.drop 6) with
      | .error e => .error e
      | .ok aff =>
        match intLine (readLine s1).2 with
        | .error e => .error e
        | .ok (n, s) =>
          match linesN pairLine n.toNat s with
          | .error e => .error e
          | .ok (ps, s) => .ok (⟨dim, slave, master, some aff, ps⟩, s)
    else
      match intLine s1 with
      | .error e => .error e
      | .ok (n, s) =>
        match linesN pairLine n.toNat s with
        | .error e => .error e
        | .ok (ps, s) => .ok (⟨dim, slave, master, none, ps⟩, s)
  | .ok _ => .error .valueError

/-- The loop over the links. -/
def readLinks (io : GmshFloat F) : Nat → List Char → Res (List (Periodic F) × List Char)
  | 0, s => .ok ([], s)
  | n + 1, s =>
    match readLink io s with
    | .error e => .error e
    | .ok (p, s) =>
      match readLinks io n s with
      | .error e => .error e
      | .ok (l, s) => .ok (p :: l, s)

/-- `_read_periodic`, /repo/src/meshio/gmsh/_gmsh22.py:239-262. -/
def readPeriodic (io : GmshFloat F) (s : List Char) : Res (List (Periodic F) × List Char) :=
  match intLine s with
  | .error e => .error e
  | .ok (n, s) =>
    match readLinks io n.toNat s with
    | .error e => .error e
    | .ok (l, s) => .ok (l, fastForward "Periodic".toList s)

/-- One section, /repo/src/meshio/gmsh/_gmsh22.py:55-69. -/
def readSection (io : GmshFloat F) (ascii : Bool) (st : St F) (environ : List Char) (s : List Char) : Res (St F × List Char) :=
  if environ = "PhysicalNames".toList then
    match readNames st.fieldData s with
    | .error e => .error e
    | .ok (fd, s) => .ok ({ st with fieldData := fd }, s)
  else if environ = "Nodes".toList then
    match readNodes io ascii s with
    | .error e => .error e
    | .ok ((p, t), s) => .ok ({ st with points := p, pointTags := some t }, s)
  else if environ = "Elements".toList then readCells ascii st s
  else if environ = "Periodic".toList then
    match readPeriodic io s with
    | .error e => .error e
    | .ok (l, s) => .ok ({ st with periodic := some l }, s)
  else if environ = "NodeData".toList then
    match readData io ascii "NodeData".toList st.pointData s with
    | .error e => .error e
    | .ok (d, s) => .ok ({ st with pointData := d }, s)
  else if environ = "ElementData".toList then
    match readData io ascii "ElementData".toList st.cellDataRaw s with
    | .error e => .error e
    | .ok (d, s) => .ok ({ st with cellDataRaw := d }, s)
  else .ok (st, fastForward environ s)

/-- The loop over the sections, /repo/src/meshio/gmsh/_gmsh22.py:44-69. -/
def readLoop (io : GmshFloat F) (ascii : Bool) : Nat → St F → List Char → Res (St F)
  | 0, st, _ => .ok st
  | n + 1, st, s =>
    match nextLine s with
    | none => .ok st
    | some (line, s) =>
      if line.head? ≠ some '$' then .error .readError
      else
        match readSection io ascii st (strip (line.drop 1)) s with
        | .error e => .error e
        | .ok (st, s) => readLoop io ascii n st s

/-- Values of cell data: integers (tags) or floats. -/
inductive Cd (F : Type) where
  | tags (l : List (List Int))
  | data (tail : List Nat) (l : List (List (List F)))
deriving DecidableEq

/-- The mesh that is read. -/
structure Out (F : Type) where
  points : List (List F)
  cells : List (String × List (List Int))
  pointData : Dict (NArr (List F))
  cellData : Dict (Cd F)
  fieldData : Dict (Int × Int)
  periodic : Option (List (Periodic F))
deriving DecidableEq

/-- The tags of the blocks, /repo/src/meshio/gmsh/_gmsh22.py:78-88: for each type the tags are dealt out to its blocks in
order. -/
def dealTags (d : Dict (List Int)) : Dict Nat → List (String × List (List Int)) → List (List Int)
  | _, [] => []
  | off, (t, rows) :: cells =>
    let start := (Dict.get? off t).getD 0
    pySlice ((Dict.get? d t).getD []) start (start + rows.length) :: dealTags d (Dict.set off t (start + rows.length)) cells

/-- The lengths of the parts of a cell data array. -/
def Cd.lens : Cd F → List Nat
  | .tags l => l.map (·.length)
  | .data _ l => l.map (·.length)

/-- The end of `read_buffer`, /repo/src/meshio/gmsh/_gmsh22.py:75-97, with the checks of the `Mesh` constructor (the types first,
then point data, then cell data).  `cell_data_from_raw` takes `len(c)` of the blocks, which are pairs here, so element data is
cut at 2, 4, … whatever the blocks are.  Element data named like a tag is left out. -/
def finish (st : St F) : Res (Out F) :=
  let lens := st.cells.map fun b => b.2.length
  if st.tags.any (fun kv => (Dict.get? st.cellDataRaw kv.1).isSome) then .error .unmodelled
  else
    let cd := st.cellDataRaw.map (fun kv => (kv.1, Cd.data kv.2.tail (cellDataFromRaw (st.cells.map fun _ => 2) kv.2.rows))) ++
      st.tags.map fun kv => (kv.1, Cd.tags (dealTags kv.2 [] st.cells))
    if !(st.cells.all fun b => hasDim b.1) then .error .keyError
    else if st.pointData.any (fun kv => decide (kv.2.rows.length ≠ st.points.length)) then .error .valueError
    else if cd.any (fun kv => decide (kv.2.lens ≠ lens)) then .error .valueError
    else .ok ⟨st.points, st.cells, st.pointData, cd, st.fieldData, st.periodic⟩

/-- `read_buffer`, /repo/src/meshio/gmsh/_gmsh22.py:31-97. -/
def readBuffer (io : GmshFloat F) (ascii : Bool) (s : List Char) : Res (Out F) :=
  match readLoop io ascii (s.length + 1) {} s with
  | .error e => .error e
  | .ok st => finish st

/-- `meshio.gmsh.read` of a file of version 2. -/
def read (io : GmshFloat F) (s : List Char) : Res (Out F) :=
  match start s with
  | .error e => .error e
  | .ok ((.v22, _, ascii), s) => readBuffer io ascii s
  | .ok (_, _) => .error .unmodelled

/-! ## Writing -/

/-- The mesh that is written: points of dimension `dim`; tags by block, if there are any. -/
structure In (F : Type) where
  dim : Nat
  points : List (List F)
  cells : List (String × List (List Int))
  pointData : Dict (NArr (List F))
  physical : Option (List (List Int))
  geometrical : Option (List (List Int))
  cellTags : Option (List (List Int))
  cellData : Dict (List (NArr (List F)))
  fieldData : Dict (List Int)
  periodic : Option (List (Periodic F))

/-- One node, /repo/src/meshio/gmsh/_gmsh22.py:325-335. -/
def nodeRow (io : GmshFloat F) (binary : Bool) (pi : List F × Nat) : Res (List Char) :=
  if binary then
    if pi.1.length = 3 then .ok (putInt 4 (1 + (pi.2 : Int)) ++ pi.1.flatMap (putF io)) else .error .valueError
  else
    match pi.1 with
    | x :: y :: z :: _ => .ok (joinWith ' ' [fmtNat (pi.2 + 1), io.fmt x, io.fmt y, io.fmt z] ++ ['\n'])
    | _ => .error .indexError

/-- `_write_nodes`, /repo/src/meshio/gmsh/_gmsh22.py:318-336. -/
def writeNodes (io : GmshFloat F) (binary : Bool) (dim : Nat) (points : List (List F)) : Res (List Char) :=
  let pts := if dim = 2 then points.map (· ++ [io.zero]) else points
  match mapRes (nodeRow io binary) pts.zipIdx with
  | .error e => .error e
  | .ok rows =>
    .ok (linesText ["$Nodes".toList, fmtNat pts.length] ++ rows.flatten ++ (if binary then ['\n'] else []) ++
      linesText ["$EndNodes".toList])

/-- The rows of the tags of a block: `np.concatenate([tags]).T`.  Lists of different length are a ValueError. -/
def tagRows (n : Nat) (cols : List (List Int)) : Res (List (List Int)) :=
  if cols.all (fun c => decide (c.length = (cols.headD []).length)) then
    if (cols.headD []).length = 0 then .ok (List.replicate n [])
    else .ok ((List.range (cols.headD []).length).map fun i => cols.map fun c => c.getD i 0)
  else .error .valueError

/-- One element, /repo/src/meshio/gmsh/_gmsh22.py:361-388: number, type, number of tags, tags, nodes. -/
def elemText (code : Nat) (start : Nat) (x : (List Int × List Int) × Nat) : List Char :=
  joinWith ' ' ([fmtNat (start + x.2 + 1), fmtNat code, fmtNat x.1.1.length] ++ x.1.1.map fmtInt ++ x.1.2.map fun z => fmtInt (z + 1))
    ++ ['\n']

/-- The same in binary files. -/
def elemBin (start : Nat) (x : (List Int × List Int) × Nat) : List Char :=
  putInts 4 (((start + x.2 + 1 : Nat) : Int) :: (x.1.1 ++ x.1.2.map (· + 1)))

/-- One block, /repo/src/meshio/gmsh/_gmsh22.py:348-390.  The tags of an empty block have no columns.  Tags of the wrong
number are a ValueError in binary files (`np.hstack`), an IndexError in text files if they are too few. -/
def writeBlock (binary : Bool) (start : Nat) (t : String) (rows : List (List Int)) (cols : List (List Int)) : Res (List Char) :=
  match mapRes (reorder gmshGmshOrdering t) rows with
  | .error e => .error e
  | .ok nodes =>
    match tagRows nodes.length cols with
    | .error e => .error e
    | .ok fcd =>
      match find meshioToGmsh t with
      | none => .error .keyError
      | some code =>
        if binary then
          if fcd.length ≠ nodes.length then .error .valueError
          else
            .ok (putInts 4 [(code : Int), (nodes.length : Int), ((fcd.headD []).length : Int)] ++
              ((fcd.zip nodes).zipIdx.flatMap (elemBin start)))
        else if fcd.length < nodes.length then .error .indexError
        else .ok ((fcd.zip nodes).zipIdx.flatMap (elemText code start))

/-- The tags of block `k`, /repo/src/meshio/gmsh/_gmsh22.py:352-355. -/
def blockTags (tagData : List (List (List Int))) (k : Nat) : Res (List (List Int)) :=
  mapRes (fun l => match l[k]? with
    | some t => .ok t
    | none => .error .indexError) tagData

/-- The loop over the blocks. -/
def writeBlocks (binary : Bool) (tagData : List (List (List Int))) : Nat → Nat → List (String × List (List Int)) → Res (List Char)
  | _, _, [] => .ok []
  | k, start, (t, rows) :: cells =>
    match blockTags tagData k with
    | .error e => .error e
    | .ok cols =>
      match writeBlock binary start t rows cols with
      | .error e => .error e
      | .ok b =>
        match writeBlocks binary tagData (k + 1) (start + rows.length) cells with
        | .error e => .error e
        | .ok bs => .ok (b ++ bs)

/-- `_write_elements`, /repo/src/meshio/gmsh/_gmsh22.py:339-393. -/
def writeElements (binary : Bool) (tagData : List (List (List Int))) (cells : List (String × List (List Int))) : Res (List Char) :=
  match writeBlocks binary tagData 0 0 cells with
  | .error e => .error e
  | .ok b =>
    .ok (linesText ["$Elements".toList, fmtNat (cells.map fun c => c.2.length).sum] ++ b ++ (if binary then ['\n'] else []) ++
      linesText ["$EndElements".toList])

/-- One link, /repo/src/meshio/gmsh/_gmsh22.py:399-411. -/
def linkLines (io : GmshFloat F) (p : Periodic F) : List (List Char) :=
  joinWith ' ' [fmtInt p.dim, fmtInt p.slave, fmtInt p.master] ::
    ((match p.affine with
      | some a => ["Affine ".toList ++ joinWith ' ' (a.map io.fmt)]
      | none => []) ++
    fmtNat p.pairs.length :: p.pairs.map fun q => joinWith ' ' [fmtInt (q.1 + 1), fmtInt (q.2 + 1)])

/-- `_write_periodic`, /repo/src/meshio/gmsh/_gmsh22.py:396-413. -/
def writePeriodic (io : GmshFloat F) (l : List (Periodic F)) : List Char :=
  linesText (["$Periodic".toList, fmtNat l.length] ++ l.flatMap (linkLines io) ++ ["$EndPeriodic".toList])

/-- The data sections. -/
def writeDatas (io : GmshFloat F) (binary : Bool) (tag : List Char) : Dict (NArr (List F)) → Res (List Char)
  | [] => .ok []
  | (name, a) :: d =>
    match writeData io binary tag name.toList a with
    | .error e => .error e
    | .ok x =>
      match writeDatas io binary tag d with
      | .error e => .error e
      | .ok y => .ok (x ++ y)

/-- `raw_from_cell_data`, entry by entry. -/
def rawData : Dict (List (NArr (List F))) → Res (Dict (NArr (List F)))
  | [] => .ok []
  | (k, l) :: d =>
    match rawFromCellData l with
    | .error e => .error e
    | .ok a =>
      match rawData d with
      | .error e => .error e
      | .ok r => .ok ((k, a) :: r)

/-- The tags that are written: physical and geometrical ones, zeros if missing, and `cell_tags` if there are any,
/repo/src/meshio/gmsh/_gmsh22.py:276-292. -/
def tagData (m : In F) : List (List (List Int)) :=
  let zeros := m.cells.map fun b => List.replicate b.2.length 0
  [m.physical.getD zeros, m.geometrical.getD zeros] ++ (match m.cellTags with
    | some l => [l]
    | none => [])

/-- The header, /repo/src/meshio/gmsh/_gmsh22.py:294-301. -/
def headerText (binary : Bool) : List Char :=
  linesText ["$MeshFormat".toList, (if binary then "2.2 1 8".toList else "2.2 0 8".toList)] ++
    (if binary then putInt 4 1 ++ ['\n'] else []) ++ linesText ["$EndMeshFormat".toList]

/-- `write`, /repo/src/meshio/gmsh/_gmsh22.py:265-315.  Point data named `gmsh:dim_tags` is not written. -/
def write (io : GmshFloat F) (binary : Bool) (m : In F) : Res (List Char) :=
  match writeNodes io binary m.dim m.points with
  | .error e => .error e
  | .ok nodes =>
    match writeElements binary (tagData m) m.cells with
    | .error e => .error e
    | .ok elems =>
      match writeDatas io binary "NodeData".toList (m.pointData.filter fun kv => kv.1 ≠ "gmsh:dim_tags") with
      | .error e => .error e
      | .ok pd =>
        match rawData m.cellData with
        | .error e => .error e
        | .ok raw =>
          match writeDatas io binary "ElementData".toList raw with
          | .error e => .error e
          | .ok cd =>
            .ok (headerText binary ++ writeNames m.fieldData ++ nodes ++ elems ++
              (match m.periodic with
                | some l => writePeriodic io l
                | none => []) ++ pd ++ cd)

end Gmsh22
end Meshio
