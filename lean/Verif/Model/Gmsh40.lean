/-
Gmsh files of version 4.0: /repo/src/meshio/gmsh/_gmsh40.py.

Numbers are unbounded in text files: overflow of numpy's integers is left out; so are negative numbers where the format has
unsigned ones.  The table of node numbers is that of version 2.2, and what is collected is kept in the structures of version 4.1,
of which dimension and tag of the nodes, the boundaries and the named sets stay empty.
-/
import Verif.Model.Gmsh41

namespace Meshio
namespace Gmsh40
open Types Tables Gmsh

variable {F : Type}

export Gmsh22 (Periodic remapTable rawData writeDatas)
export Gmsh41 (ints sizes doubles Entity entity Nodes ElemBlock orderRows Cells St putSize dimOf)

/-! ## Reading -/

/-- One entity, /repo/src/meshio/gmsh/_gmsh40.py:95-102: a box of six numbers whatever the dimension. -/
def readEntity (io : GmshFloat F) (ascii : Bool) (d : Nat) (s : List Char) : Res (Entity × List Char) :=
  match ints ascii 1 s with
  | (tag :: _, s) =>
    match doubles io ascii 6 s with
    | (_, s) =>
      match sizes ascii 8 1 s with
      | (np :: _, s) =>
        match ints ascii np s with
        | (phys, s) =>
          if 0 < d then
            match sizes ascii 8 1 s with
            | (nb :: _, s) =>
              match ints ascii nb s with
              | (bounds, s) => .ok (⟨d, tag, phys, bounds⟩, s)
            | ([], _) => .error .indexError
          else .ok (⟨d, tag, phys, []⟩, s)
      | ([], _) => .error .indexError
  | ([], _) => .error .indexError

/-- The entities of one dimension. -/
def readEntitiesN (io : GmshFloat F) (ascii : Bool) (d : Nat) : Nat → List Char → Res (List Entity × List Char)
  | 0, s => .ok ([], s)
  | n + 1, s =>
    match readEntity io ascii d s with
    | .error e => .error e
    | .ok (x, s) =>
      match readEntitiesN io ascii d n s with
      | .error e => .error e
      | .ok (l, s) => .ok (x :: l, s)

/-- The loop over the dimensions: pairs of number and dimension. -/
def readEntitiesD (io : GmshFloat F) (ascii : Bool) : List (Nat × Nat) → List Char → Res (List Entity × List Char)
  | [], s => .ok ([], s)
  | (n, d) :: l, s =>
    match readEntitiesN io ascii d n s with
    | .error e => .error e
    | .ok (x, s) =>
      match readEntitiesD io ascii l s with
      | .error e => .error e
      | .ok (y, s) => .ok (x ++ y, s)

/-- `_read_entities`, /repo/src/meshio/gmsh/_gmsh40.py:89-104.  The tags of the boundary, which are read and dropped, stay in the entity and are not used. -/
def readEntities (io : GmshFloat F) (ascii : Bool) (s : List Char) : Res (List Entity × List Char) :=
  match sizes ascii 8 4 s with
  | (number, s) =>
    match readEntitiesD io ascii number.zipIdx s with
    | .error e => .error e
    | .ok (l, s) => .ok (l, fastForward "Entities".toList s)

/-- A line of a node in a text file, /repo/src/meshio/gmsh/_gmsh40.py:124-127: number and coordinates.  `room` says whether
there is a place left in the array. -/
def nodeLine (io : GmshFloat F) (room : Bool) (line : List Char) : Res (Int × List F) :=
  match splitWs line with
  | [t, x, y, z] =>
    match io.parse x, io.parse y, io.parse z with
    | some x, some y, some z =>
      if room then
        match toInt t with
        | .error e => .error e
        | .ok t => .ok (t, [x, y, z])
      else .error .indexError
    | _, _, _ => .error .valueError
  | _ => .error .valueError

/-- The nodes of a block in a text file, /repo/src/meshio/gmsh/_gmsh40.py:122-128; `idx` nodes came before. -/
def nodeLines (io : GmshFloat F) (total : Nat) : Nat → Nat → List Char → Res (List (Int × List F) × List Char)
  | _, 0, s => .ok ([], s)
  | idx, n + 1, s =>
    match nodeLine io (decide (idx < total)) (readLine s).1 with
    | .error e => .error e
    | .ok p =>
      match nodeLines io total (idx + 1) n (readLine s).2 with
      | .error e => .error e
      | .ok (l, s) => .ok (p :: l, s)

/-- `(int(k) for k in line.split())` -/
def lineInts (line : List Char) : Res (List Int) := mapRes toInt (splitWs line)

/-- The loop over the blocks in a text file, /repo/src/meshio/gmsh/_gmsh40.py:117-128. -/
def nodeBlocksText (io : GmshFloat F) (total : Nat) : Nat → Nat → List Char → Res (List (Int × List F) × List Char)
  | _, 0, s => .ok ([], s)
  | idx, b + 1, s =>
    match lineInts (readLine s).1 with
    | .error e => .error e
    | .ok [_, _, _, n] =>
      match nodeLines io total idx n.toNat (readLine s).2 with
      | .error e => .error e
      | .ok (l, s) =>
        match nodeBlocksText io total (idx + l.length) b s with
        | .error e => .error e
        | .ok (r, s) => .ok (l ++ r, s)
    | .ok _ => .error .valueError

/-- The nodes of a text file, /repo/src/meshio/gmsh/_gmsh40.py:110-128.  Arrays that are not filled are left out. -/
def readNodesText (io : GmshFloat F) (s : List Char) : Res (List (Int × List F) × List Char) :=
  match lineInts (readLine s).1 with
  | .error e => .error e
  | .ok [blocks, total] =>
    if total < 0 then .error .valueError
    else
      match nodeBlocksText io total.toNat 0 blocks.toNat (readLine s).2 with
      | .error e => .error e
      | .ok (l, s) => if l.length ≠ total.toNat then .error .unmodelled else .ok (l, s)
  | .ok _ => .error .valueError

/-- The loop over the blocks in a binary file, /repo/src/meshio/gmsh/_gmsh40.py:135-142.  A file that ends within the numbers is
left out. -/
def nodeBlocksBin (io : GmshFloat F) : Nat → List Char → Res (List (Int × List F) × List Char)
  | 0, s => .ok ([], s)
  | b + 1, s =>
    match sizes false 8 1 (ints false 3 s).2 with
    | (n :: _, s) =>
      if (blocks 28 n s).1.length ≠ n then .error .unmodelled
      else
        match nodeBlocksBin io b (blocks 28 n s).2 with
        | .error e => .error e
        | .ok (l, s') => .ok ((blocks 28 n s).1.map (record io 3) ++ l, s')
    | ([], _) => .error .indexError

/-- The nodes of a binary file, /repo/src/meshio/gmsh/_gmsh40.py:131-149: nothing but a line break follows the last block. -/
def readNodesBin (io : GmshFloat F) (s : List Char) : Res (List (Int × List F) × List Char) :=
  match sizes false 8 2 s with
  | ([blocks, _], s) =>
    match nodeBlocksBin io blocks s with
    | .error e => .error e
    | .ok (l, s) =>
      if blocks = 0 then .error .valueError
      else if (readLine s).1 ≠ ['\n'] then .error .readError
      else .ok (l, (readLine s).2)
  | _ => .error .valueError

/-- `_read_nodes`, /repo/src/meshio/gmsh/_gmsh40.py:107-152. -/
def readNodes (io : GmshFloat F) (ascii : Bool) (s : List Char) : Res (Nodes F × List Char) :=
  match (if ascii then readNodesText io s else readNodesBin io s) with
  | .error e => .error e
  | .ok (l, s) => .ok (⟨l.map (·.1), l.map (·.2), []⟩, fastForward "Nodes".toList s)

/-- One block of elements, /repo/src/meshio/gmsh/_gmsh40.py:165-175.  A file that ends within the numbers is left out. -/
def readElemBlock (ascii : Bool) (ents : Option (List Entity)) (s : List Char) : Res (ElemBlock × List Char) :=
  match ints ascii 3 s with
  | ([tag, dim, code], s) =>
    match sizes ascii 8 1 s with
    | ([n], s) =>
      match find gmshToMeshio code.toNat, decide (0 ≤ code) with
      | some t, true =>
        match find numNodesPerCell t with
        | none => .error .keyError
        | some w =>
          match ints ascii (n * (1 + w)) s with
          | (xs, s) =>
            if xs.length ≠ n * (1 + w) then .error .unmodelled
            else if n = 0 then .error .valueError
            else
              match ents with
              | none => .ok (⟨dim, tag, t, none, none, rowsN (1 + w) n xs⟩, s)
              | some ents =>
                match entity ents dim tag with
                | .error e => .error e
                | .ok e => .ok (⟨dim, tag, t, some e.phys, none, rowsN (1 + w) n xs⟩, s)
      | _, _ => .error .keyError
    | _ => .error .valueError
  | _ => .error .valueError

/-- The loop over the blocks of elements. -/
def readElemBlocks (ascii : Bool) (ents : Option (List Entity)) : Nat → List Char → Res (List ElemBlock × List Char)
  | 0, s => .ok ([], s)
  | n + 1, s =>
    match readElemBlock ascii ents s with
    | .error e => .error e
    | .ok (b, s) =>
      match readElemBlocks ascii ents n s with
      | .error e => .error e
      | .ok (l, s) => .ok (b :: l, s)

/-- The nodes of a block as positions, /repo/src/meshio/gmsh/_gmsh40.py:186-190: the number of the element is dropped, and the
table is indexed by the number of the node itself. -/
def remapRows (table : List Int) (b : ElemBlock) : Res ElemBlock :=
  match mapRes (fun r => mapRes (npIndex table) (r.drop 1)) b.rows with
  | .error e => .error e
  | .ok rows => .ok { b with rows := rows }

/-- The end of `_read_elements`, /repo/src/meshio/gmsh/_gmsh40.py:192-206. -/
def collect (l : List ElemBlock) : Cells where
  cells := l.map fun b => (b.type, b.rows)
  physical := l.filterMap fun b => match b.phys with
    | some (p :: _) => some (List.replicate b.rows.length p)
    | _ => none
  geometrical := l.map fun b => List.replicate b.rows.length b.tag
  sets := []
  bounding := none

/-- `_read_elements`, /repo/src/meshio/gmsh/_gmsh40.py:155-206.  The table has one entry for each number up to the largest,
including zero: that of version 2.2 for the numbers plus one. -/
def readElements (ascii : Bool) (tags : List Int) (ents : Option (List Entity)) (s : List Char) : Res (Cells × List Char) :=
  match sizes ascii 8 2 s with
  | ([blocks, _], s) =>
    match readElemBlocks ascii ents blocks s with
    | .error e => .error e
    | .ok (l, s) =>
      match remapTable (tags.map (· + 1)) with
      | .error e => .error e
      | .ok table =>
        match mapRes (remapRows table) l with
        | .error e => .error e
        | .ok l =>
          match mapRes orderRows l with
          | .error e => .error e
          | .ok l => .ok (collect l, fastForward "Elements".toList s)
  | _ => .error .valueError

/-- The transformation and the number of pairs of a link in a text file, /repo/src/meshio/gmsh/_gmsh40.py:216-223.  `np.fromfile`
leaves the file after the white space that follows the last number. -/
def linkHeadText (io : GmshFloat F) (s : List Char) : Res ((Option (List F) × Int) × List Char) :=
  let s := s.dropWhile isWs
  let line := strip (readLine s).1
  if "Affine".toList.isPrefixOf line then
    match Gmsh22.floats io.parse (line.drop 6) with
    | .error e => .error e
    | .ok aff =>
      match intLine (readLine s).2 with
      | .error e => .error e
      | .ok (n, s) => .ok ((some aff, n), s)
  else
    match toInt line with
    | .error e => .error e
    | .ok n => .ok ((none, n), (readLine s).2)

/-- The same in a binary file, /repo/src/meshio/gmsh/_gmsh40.py:225-230: eight bytes, negative if a transformation follows. -/
def linkHeadBin (io : GmshFloat F) (s : List Char) : Res ((Option (List F) × Int) × List Char) :=
  match getInts 8 1 s with
  | (n :: _, s) =>
    if n < 0 then
      match sizes false 8 1 (doubles io false 16 s).2 with
      | (k :: _, s') => .ok ((some (doubles io false 16 s).1, (k : Int)), s')
      | ([], _) => .error .indexError
    else .ok ((none, n), s)
  | ([], _) => .error .indexError

/-- One periodic link, /repo/src/meshio/gmsh/_gmsh40.py:214-233.  Negative numbers of pairs are left out, and so are files that
end within the pairs. -/
def readLink (io : GmshFloat F) (ascii : Bool) (s : List Char) : Res (Periodic F × List Char) :=
  match ints ascii 3 s with
  | ([dim, slave, master], s) =>
    match (if ascii then linkHeadText io s else linkHeadBin io s) with
    | .error e => .error e
    | .ok ((affine, n), s) =>
      if n < 0 then .error .unmodelled
      else
        match ints ascii (n.toNat * 2) s with
        | (xs, s) =>
          if xs.length ≠ n.toNat * 2 then .error .unmodelled
          else .ok (⟨dim, slave, master, affine, (rowsN 2 n.toNat xs).map fun r => (r.getD 0 0 - 1, r.getD 1 0 - 1)⟩, s)
  | _ => .error .valueError

/-- The loop over the links. -/
def readLinks (io : GmshFloat F) (ascii : Bool) : Nat → List Char → Res (List (Periodic F) × List Char)
  | 0, s => .ok ([], s)
  | n + 1, s =>
    match readLink io ascii s with
    | .error e => .error e
    | .ok (p, s) =>
      match readLinks io ascii n s with
      | .error e => .error e
      | .ok (l, s) => .ok (p :: l, s)

/-- `_read_periodic`, /repo/src/meshio/gmsh/_gmsh40.py:209-236. -/
def readPeriodic (io : GmshFloat F) (ascii : Bool) (s : List Char) : Res (List (Periodic F) × List Char) :=
  match ints ascii 1 s with
  | (n :: _, s) =>
    match readLinks io ascii n.toNat s with
    | .error e => .error e
    | .ok (l, s) => .ok (l, fastForward "Periodic".toList s)
  | ([], _) => .error .indexError

/-- One section, /repo/src/meshio/gmsh/_gmsh40.py:51-74. -/
def readSection (io : GmshFloat F) (ascii : Bool) (st : St F) (environ : List Char) (s : List Char) : Res (St F × List Char) :=
  if environ = "PhysicalNames".toList then
    match readNames st.fieldData s with
    | .error e => .error e
    | .ok (fd, s) => .ok ({ st with fieldData := fd }, s)
  else if environ = "Entities".toList then
    match readEntities io ascii s with
    | .error e => .error e
    | .ok (l, s) => .ok ({ st with ents := some l }, s)
  else if environ = "Nodes".toList then
    match readNodes io ascii s with
    | .error e => .error e
    | .ok (n, s) => .ok ({ st with nodes := some n }, s)
  else if environ = "Elements".toList then
    match st.nodes with
    | none => .error .unboundLocal
    | some n =>
      match readElements ascii n.tags st.ents s with
      | .error e => .error e
      | .ok (c, s) => .ok ({ st with cells := some c }, s)
  else if environ = "Periodic".toList then
    match readPeriodic io ascii s with
    | .error e => .error e
    | .ok (l, s) => .ok ({ st with periodic := some l }, s)
  else if environ = "NodeData".toList then
    match readData io ascii "NodeData".toList st.pointData s with
    | .error e => .error e
    | .ok (d, s) => .ok ({ st with pointData := d }, s)
  else if environ = "ElementData".toList then
    match readData io ascii "ElementData".toList st.cellDataRaw s with
    | .error e => .error e
    | .ok (d, s) => .ok ({ st with cellDataRaw := d }, s)
  else .ok (st, fastForward environ s)

/-- The loop over the sections, /repo/src/meshio/gmsh/_gmsh40.py:42-74: blank lines between sections are refused. -/
def readLoop (io : GmshFloat F) (ascii : Bool) : Nat → St F → List Char → Res (St F)
  | 0, st, _ => .ok st
  | n + 1, st, s =>
    if s = [] then .ok st
    else if (readLine s).1.head? ≠ some '$' then .error .readError
    else
      match readSection io ascii st (strip ((readLine s).1.drop 1)) (readLine s).2 with
      | .error e => .error e
      | .ok (st, s) => readLoop io ascii n st s

/-- The mesh that is read: `physical` and `geometrical` are the cell data `gmsh:physical` and `gmsh:geometrical` made of the
tags of the entities (absent if empty). -/
structure Out (F : Type) where
  points : List (List F)
  cells : List (String × List (List Int))
  pointData : Dict (NArr (List F))
  cellData : Dict (List Nat × List (List (List F)))
  physical : List (List Int)
  geometrical : List (List Int)
  fieldData : Dict (Int × Int)
  periodic : Option (List (Periodic F))
deriving DecidableEq

/-- The names that `cell_data.update(cell_tags)` replaces, /repo/src/meshio/gmsh/_gmsh40.py:77. -/
def replaced (c : Cells) (name : String) : Bool :=
  (decide (name = "gmsh:physical") && decide (c.physical ≠ [])) || (decide (name = "gmsh:geometrical") && decide (c.geometrical ≠ []))

/-- The end of `read_buffer`, /repo/src/meshio/gmsh/_gmsh40.py:76-86, with the checks of the `Mesh` constructor. -/
def finish (st : St F) : Res (Out F) :=
  match st.cells with
  | none => .error .unboundLocal
  | some c =>
    let lens := c.cells.map fun b => b.2.length
    let cd := (st.cellDataRaw.map fun kv => (kv.1, kv.2.tail, cellDataFromRaw lens kv.2.rows)).filter fun kv => !replaced c kv.1
    match st.nodes with
    | none => .error .unboundLocal
    | some n =>
      if st.pointData.any (fun kv => decide (kv.2.rows.length ≠ n.points.length)) then .error .valueError
      else if cd.any (fun kv => decide (kv.2.2.map List.length ≠ lens)) then .error .valueError
      else if c.physical ≠ [] ∧ c.physical.map List.length ≠ lens then .error .valueError
      else if c.geometrical ≠ [] ∧ c.geometrical.map List.length ≠ lens then .error .valueError
      else .ok ⟨n.points, c.cells, st.pointData, cd, c.physical, c.geometrical, st.fieldData, st.periodic⟩

/-- `read_buffer`, /repo/src/meshio/gmsh/_gmsh40.py:33-86. -/
def readBuffer (io : GmshFloat F) (ascii : Bool) (s : List Char) : Res (Out F) :=
  match readLoop io ascii (s.length + 1) {} s with
  | .error e => .error e
  | .ok st => finish st

/-- `meshio.gmsh.read` of a file of version 4.0. -/
def read (io : GmshFloat F) (s : List Char) : Res (Out F) :=
  match start s with
  | .error e => .error e
  | .ok ((.v40, _, ascii), s) => readBuffer io ascii s
  | .ok (_, _) => .error .unmodelled

/-! ## Writing -/

/-- The mesh that is written; the cell data includes that with the names `gmsh:physical` and `gmsh:geometrical`. -/
structure In (F : Type) where
  dim : Nat
  points : List (List F)
  cells : List (String × List (List Int))
  pointData : Dict (NArr (List F))
  cellData : Dict (List (NArr (List F)))
  fieldData : Dict (List Int)
  periodic : Option (List (Periodic F))

/-- `_write_nodes`, /repo/src/meshio/gmsh/_gmsh40.py:266-303: all nodes in one block, with tag one and dimension zero.  Points in
other than two or three dimensions are left out. -/
def writeNodes (io : GmshFloat F) (binary : Bool) (m : In F) : Res (List Char) :=
  if m.dim ≠ 2 ∧ m.dim ≠ 3 then .error .unmodelled
  else
    let pts := if m.dim = 2 then m.points.map (· ++ [io.zero]) else m.points
    .ok (linesText ["$Nodes".toList] ++
      (if binary then
        [1, pts.length].flatMap putSize ++ putInts 4 [1, 0, 0] ++ putSize pts.length ++
          pts.zipIdx.flatMap (fun p => putInt 4 (1 + (p.2 : Int)) ++ p.1.flatMap (putF io)) ++ ['\n']
      else
        linesText ([joinWith ' ' [fmtNat 1, fmtNat pts.length], joinWith ' ' [fmtNat 1, fmtNat 0, fmtNat 0, fmtNat pts.length]] ++
          pts.zipIdx.map fun p => joinWith ' ' (fmtNat (p.2 + 1) :: p.1.map io.fmt))) ++
      linesText ["$EndNodes".toList])

/-- The rows of a block in a text file, /repo/src/meshio/gmsh/_gmsh40.py:367-370: the format has a place for each node of the
type; rows that are too short raise an IndexError, superfluous nodes are dropped. -/
def elemLine (w start : Nat) (r : List Int × Nat) : Res (List Char) :=
  if r.1.length < w then .error .indexError
  else .ok (joinWith ' ' (fmtNat (start + r.2) :: (r.1.take w).map fun z => fmtInt (z + 1)))

/-- One block of elements, /repo/src/meshio/gmsh/_gmsh40.py:316-342, 351-370: the entity always has tag one, the elements are
numbered from `start`. -/
def elemBlock (binary : Bool) (start : Nat) (t : String) (code : Nat) (rows : List (List Int)) : Res (List Char) :=
  if binary then
    .ok (putInts 4 [1, (dimOf t : Int), (code : Int)] ++ putSize rows.length ++
      rows.zipIdx.flatMap fun r => putInt 4 ((start + r.2 : Nat) : Int) ++ r.1.flatMap fun z => putInt 4 (z + 1))
  else
    match find numNodesPerCell t with
    | none => .error .keyError
    | some w =>
      match mapRes (elemLine w start) rows.zipIdx with
      | .error e => .error e
      | .ok l => .ok (linesText [joinWith ' ' [fmtNat 1, fmtNat (dimOf t), fmtNat code, fmtNat rows.length]] ++ linesText l)

/-- The loop over the blocks; `start` is the number of the first element of the block. -/
def writeElemBlocks (binary : Bool) : Nat → List (String × List (List Int)) → Res (List Char)
  | _, [] => .ok []
  | start, (t, rows) :: cells =>
    match mapRes (reorder gmshGmshOrdering t) rows with
    | .error e => .error e
    | .ok nodes =>
      match find meshioToGmsh t with
      | none => .error .keyError
      | some code =>
        match elemBlock binary start t code nodes with
        | .error e => .error e
        | .ok b =>
          match writeElemBlocks binary (start + rows.length) cells with
          | .error e => .error e
          | .ok s => .ok (b ++ s)

/-- `_write_elements`, /repo/src/meshio/gmsh/_gmsh40.py:306-372: the numbers start at zero. -/
def writeElements (binary : Bool) (m : In F) : Res (List Char) :=
  let total := (m.cells.map fun c => c.2.length).sum
  match writeElemBlocks binary 0 m.cells with
  | .error e => .error e
  | .ok b =>
    .ok (linesText ["$Elements".toList] ++
      (if binary then [m.cells.length, total].flatMap putSize
        else linesText [joinWith ' ' ([m.cells.length, total].map fmtNat)]) ++ b ++
      (if binary then ['\n'] else []) ++ linesText ["$EndElements".toList])

/-- One link, /repo/src/meshio/gmsh/_gmsh40.py:388-397.  A transformation is a list of numbers. -/
def linkText (io : GmshFloat F) (binary : Bool) (p : Periodic F) : List Char :=
  let aff := p.affine.getD []
  if binary then
    putInts 4 [p.dim, p.slave, p.master] ++ (if aff = [] then [] else putInt 8 (-1) ++ aff.flatMap (putF io)) ++
      putInt 4 p.pairs.length ++ p.pairs.flatMap fun q => putInt 4 (q.1 + 1) ++ putInt 4 (q.2 + 1)
  else
    linesText ([joinWith ' ' [fmtInt p.dim, fmtInt p.slave, fmtInt p.master]] ++
      (if aff = [] then [] else ["-1".toList, joinWith ' ' (aff.map io.fmt)]) ++
      [fmtNat p.pairs.length] ++ p.pairs.map fun q => joinWith ' ' [fmtInt (q.1 + 1), fmtInt (q.2 + 1)])

/-- `_write_periodic`, /repo/src/meshio/gmsh/_gmsh40.py:375-400. -/
def writePeriodic (io : GmshFloat F) (binary : Bool) (l : List (Periodic F)) : List Char :=
  linesText ["$Periodic".toList] ++ (if binary then putInt 4 l.length else linesText [fmtNat l.length]) ++
    l.flatMap (linkText io binary) ++ (if binary then ['\n'] else []) ++ linesText ["$EndPeriodic".toList]

/-- The header, /repo/src/meshio/gmsh/_gmsh40.py:244-250. -/
def headerText (binary : Bool) : List Char :=
  linesText ["$MeshFormat".toList, (if binary then "4.0 1 8".toList else "4.0 0 8".toList)] ++
    (if binary then putInt 4 1 ++ ['\n'] else []) ++ linesText ["$EndMeshFormat".toList]

/-- `write`, /repo/src/meshio/gmsh/_gmsh40.py:239-263. -/
def write (io : GmshFloat F) (binary : Bool) (m : In F) : Res (List Char) :=
  match writeNodes io binary m with
  | .error e => .error e
  | .ok nodes =>
    match writeElements binary m with
    | .error e => .error e
    | .ok elems =>
      match writeDatas io binary "NodeData".toList m.pointData with
      | .error e => .error e
      | .ok pd =>
        match rawData m.cellData with
        | .error e => .error e
        | .ok raw =>
          match writeDatas io binary "ElementData".toList raw with
          | .error e => .error e
          | .ok cd =>
            .ok (headerText binary ++ writeNames m.fieldData ++ nodes ++ elems ++
              (match m.periodic with
                | some l => writePeriodic io binary l
                | none => []) ++ pd ++ cd)

end Gmsh40
end Meshio
