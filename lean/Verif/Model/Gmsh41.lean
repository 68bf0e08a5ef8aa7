/-
Gmsh files of version 4.1: /repo/src/meshio/gmsh/_gmsh41.py.

Numbers are unbounded in text files: overflow of numpy's integers is left out; so are negative numbers where the format has
unsigned ones.  The table of node numbers is that of version 2.2.
-/
import Verif.Model.Gmsh22

namespace Meshio
namespace Gmsh41
open Types Tables Gmsh

variable {F : Type}

export Gmsh22 (Periodic remapTable rawData writeDatas)

/-! ## Reading -/

/-- `np.fromfile(f, dtype, n)` with `sep=" "` in text files; `size` bytes for each item in binary files. -/
def nums {α : Type} (ascii : Bool) (parse : List Char → Option α) (size : Nat) (dec : List Char → α) (n : Nat) (s : List Char) :
    List α × List Char :=
  if ascii then scan parse n s else ((blocks size n s).1.map dec, (blocks size n s).2)

/-- Numbers of type `c_int`. -/
def ints (ascii : Bool) (n : Nat) (s : List Char) : List Int × List Char := nums ascii parseInt 4 getInt n s

def parseSize (t : List Char) : Option Nat := (parseInt t).bind fun z => if 0 ≤ z then some z.toNat else none

def getSize (l : List Char) : Nat := natDec false (toBytes l)

/-- Unsigned numbers of `k` bytes. -/
def sizes (ascii : Bool) (k n : Nat) (s : List Char) : List Nat × List Char := nums ascii parseSize k getSize n s

/-- Numbers of type `c_double`. -/
def doubles (io : GmshFloat F) (ascii : Bool) (n : Nat) (s : List Char) : List F × List Char := nums ascii io.parse 8 (getF io) n s

/-- `_size_type`, /repo/src/meshio/gmsh/_gmsh41.py:31-32. -/
def sizeType (dataSize : Int) : Res Nat :=
  if dataSize = 1 ∨ dataSize = 2 ∨ dataSize = 4 ∨ dataSize = 8 then .ok dataSize.toNat else .error .typeError

/-- A geometric entity: dimension, tag, physical tags, tags of the entities that bound it. -/
structure Entity where
  dim : Nat
  tag : Int
  phys : List Int
  bounds : List Int
deriving DecidableEq, Repr

/-- One entity, /repo/src/meshio/gmsh/_gmsh41.py:130-138. -/
def readEntity (io : GmshFloat F) (ascii : Bool) (k d : Nat) (s : List Char) : Res (Entity × List Char) :=
  match ints ascii 1 s with
  | ([tag], s) =>
    match doubles io ascii (if d = 0 then 3 else 6) s with
    | (_, s) =>
      match sizes ascii k 1 s with
      | ([np], s) =>
        match ints ascii np s with
        | (phys, s) =>
          if 0 < d then
            match sizes ascii k 1 s with
            | (nb :: _, s) =>
              match ints ascii nb s with
              | (bounds, s) => .ok (⟨d, tag, phys, bounds⟩, s)
            | ([], _) => .error .indexError
          else .ok (⟨d, tag, phys, []⟩, s)
      | _ => .error .valueError
  | _ => .error .valueError

/-- The entities of one dimension. -/
def readEntitiesN (io : GmshFloat F) (ascii : Bool) (k d : Nat) : Nat → List Char → Res (List Entity × List Char)
  | 0, s => .ok ([], s)
  | n + 1, s =>
    match readEntity io ascii k d s with
    | .error e => .error e
    | .ok (x, s) =>
      match readEntitiesN io ascii k d n s with
      | .error e => .error e
      | .ok (l, s) => .ok (x :: l, s)

/-- The loop over the dimensions: pairs of number and dimension. -/
def readEntitiesD (io : GmshFloat F) (ascii : Bool) (k : Nat) : List (Nat × Nat) → List Char → Res (List Entity × List Char)
  | [], s => .ok ([], s)
  | (n, d) :: l, s =>
    match readEntitiesN io ascii k d n s with
    | .error e => .error e
    | .ok (x, s) =>
      match readEntitiesD io ascii k l s with
      | .error e => .error e
      | .ok (y, s) => .ok (x ++ y, s)

/-- `_read_entities`, /repo/src/meshio/gmsh/_gmsh41.py:115-141. -/
def readEntities (io : GmshFloat F) (ascii : Bool) (dataSize : Int) (s : List Char) : Res (List Entity × List Char) :=
  match sizeType dataSize with
  | .error e => .error e
  | .ok k =>
    match sizes ascii k 4 s with
    | (number, s) =>
      match readEntitiesD io ascii k number.zipIdx s with
      | .error e => .error e
      | .ok (l, s) => .ok (l, fastForward "Entities".toList s)

/-- `physical_tags[dim][tag]`, `bounding_entities[dim][tag]`: the last entity of this dimension and tag.  Negative dimensions
are left out. -/
def entity (ents : List Entity) (dim tag : Int) : Res Entity :=
  if dim < 0 then .error .unmodelled
  else if 3 < dim then .error .indexError
  else
    match (ents.filter fun e => decide ((e.dim : Int) = dim ∧ e.tag = tag)).getLast? with
    | some e => .ok e
    | none => .error .keyError

/-- The nodes: numbers, coordinates, dimension and tag of the entity. -/
structure Nodes (F : Type) where
  tags : List Int
  points : List (List F)
  dimTags : List (Int × Int)
deriving DecidableEq

/-- One block of nodes, /repo/src/meshio/gmsh/_gmsh41.py:164-187.  A file that ends within the numbers is left out. -/
def readNodeBlock (io : GmshFloat F) (ascii : Bool) (k : Nat) (s : List Char) : Res (Nodes F × List Char) :=
  match ints ascii 3 s with
  | ([dim, tag, parametric], s) =>
    if parametric ≠ 0 then .error .readError
    else
      match sizes ascii k 1 s with
      | (n :: _, s) =>
        match sizes ascii k n s with
        | (tags, s) =>
          if tags.length ≠ n then .error .unmodelled
          else
            match doubles io ascii (n * 3) s with
            | (xs, s) =>
              match reshape n 3 xs with
              | .error e => .error e
              | .ok pts => .ok (⟨tags.map Int.ofNat, pts, List.replicate n (dim, tag)⟩, s)
      | ([], _) => .error .indexError
  | _ => .error .valueError

/-- The loop over the blocks of nodes. -/
def readNodeBlocks (io : GmshFloat F) (ascii : Bool) (k : Nat) : Nat → List Char → Res (Nodes F × List Char)
  | 0, s => .ok (⟨[], [], []⟩, s)
  | n + 1, s =>
    match readNodeBlock io ascii k s with
    | .error e => .error e
    | .ok (b, s) =>
      match readNodeBlocks io ascii k n s with
      | .error e => .error e
      | .ok (r, s) => .ok (⟨b.tags ++ r.tags, b.points ++ r.points, b.dimTags ++ r.dimTags⟩, s)

/-- `_read_nodes`, /repo/src/meshio/gmsh/_gmsh41.py:144-191.  Files in which the number of nodes is not the sum of those of the
blocks are left out. -/
def readNodes (io : GmshFloat F) (ascii : Bool) (dataSize : Int) (s : List Char) : Res (Nodes F × List Char) :=
  match sizeType dataSize with
  | .error e => .error e
  | .ok k =>
    match sizes ascii k 4 s with
    | ([blocks, total, _, _], s) =>
      match readNodeBlocks io ascii k blocks s with
      | .error e => .error e
      | .ok (r, s) =>
        if r.tags.length ≠ total then .error .unmodelled
        else .ok (r, fastForward "Nodes".toList s)
    | _ => .error .valueError

/-- A block of elements: dimension and tag of the entity, type, the physical tags and the boundary of the entity if there is a
section of entities, and for each element its number and nodes. -/
structure ElemBlock where
  dim : Int
  tag : Int
  type : String
  phys : Option (List Int)
  bounds : Option (List Int)
  rows : List (List Int)
deriving DecidableEq

/-- One block of elements, /repo/src/meshio/gmsh/_gmsh41.py:209-237.  The physical tags are looked up once, after the type.
A file that ends within the numbers is left out. -/
def readElemBlock (ascii : Bool) (k : Nat) (ents : Option (List Entity)) (s : List Char) : Res (ElemBlock × List Char) :=
  match ints ascii 3 s with
  | ([dim, tag, code], s) =>
    match sizes ascii k 1 s with
    | ([n], s) =>
      match find gmshToMeshio code.toNat, decide (0 ≤ code) with
      | some t, true =>
        match find numNodesPerCell t with
        | none => .error .keyError
        | some w =>
          match sizes ascii k (n * (1 + w)) s with
          | (xs, s) =>
            if xs.length ≠ n * (1 + w) then .error .unmodelled
            else if n = 0 then .error .valueError
            else
              match ents with
              | none => .ok (⟨dim, tag, t, none, none, (rowsN (1 + w) n xs).map fun r => r.map Int.ofNat⟩, s)
              | some ents =>
                match entity ents dim tag with
                | .error e => .error e
                | .ok e =>
                  .ok (⟨dim, tag, t, some e.phys, if 0 < dim then some e.bounds else none,
                    (rowsN (1 + w) n xs).map fun r => r.map Int.ofNat⟩, s)
      | _, _ => .error .keyError
    | _ => .error .valueError
  | _ => .error .valueError

/-- The loop over the blocks of elements. -/
def readElemBlocks (ascii : Bool) (k : Nat) (ents : Option (List Entity)) : Nat → List Char → Res (List ElemBlock × List Char)
  | 0, s => .ok ([], s)
  | n + 1, s =>
    match readElemBlock ascii k ents s with
    | .error e => .error e
    | .ok (b, s) =>
      match readElemBlocks ascii k ents n s with
      | .error e => .error e
      | .ok (l, s) => .ok (b :: l, s)

/-- The nodes of a block as positions, /repo/src/meshio/gmsh/_gmsh41.py:246-249: the number of the element is dropped. -/
def remapRows (table : List Int) (b : ElemBlock) : Res ElemBlock :=
  match mapRes (fun r => mapRes (fun z => npIndex table (z - 1)) (r.drop 1)) b.rows with
  | .error e => .error e
  | .ok rows => .ok { b with rows := rows }

/-- `CellBlock(key, _gmsh_to_meshio_order(key, values))`, /repo/src/meshio/gmsh/_gmsh41.py:253. -/
def orderRows (b : ElemBlock) : Res ElemBlock :=
  match mapRes (reorder gmshMeshioOrdering b.type) b.rows with
  | .error e => .error e
  | .ok rows => if hasDim b.type then .ok { b with rows := rows } else .error .keyError

/-- The cells: blocks; the tags of the blocks (`physical` only for the blocks whose entity has physical tags); for each
physical name the members in each block; the boundaries.  Without blocks there are no keys. -/
structure Cells where
  cells : List (String × List (List Int))
  physical : List (List Int)
  geometrical : List (List Int)
  sets : Dict (List (List Nat))
  bounding : Option (List (Option (List Int)))
deriving DecidableEq

/-- The members of a named set, /repo/src/meshio/gmsh/_gmsh41.py:211-223: all or none of a block. -/
def members (nd : Int × Int) (b : ElemBlock) : List Nat :=
  match b.phys with
  | none => []
  | some l => if nd.2 = b.dim ∧ nd.1 ∈ l then List.range b.rows.length else []

/-- The end of `_read_elements`, /repo/src/meshio/gmsh/_gmsh41.py:251-270. -/
def collect (ents : Option (List Entity)) (fd : Dict (Int × Int)) (l : List ElemBlock) : Cells where
  cells := l.map fun b => (b.type, b.rows)
  physical := l.filterMap fun b => match b.phys with
    | some (p :: _) => some (List.replicate b.rows.length p)
    | _ => none
  geometrical := l.map fun b => List.replicate b.rows.length b.tag
  sets := fd.map fun e => (e.1, l.map (members e.2))
  bounding := ents.bind fun _ => if l = [] then none else some (l.map (·.bounds))

/-- `_read_elements`, /repo/src/meshio/gmsh/_gmsh41.py:194-270. -/
def readElements (ascii : Bool) (dataSize : Int) (tags : List Int) (ents : Option (List Entity)) (fd : Dict (Int × Int))
    (s : List Char) : Res (Cells × List Char) :=
  match sizeType dataSize with
  | .error e => .error e
  | .ok k =>
    match sizes ascii k 4 s with
    | ([blocks, _, _, _], s) =>
      match readElemBlocks ascii k ents blocks s with
      | .error e => .error e
      | .ok (l, s) =>
        match remapTable tags with
        | .error e => .error e
        | .ok table =>
          match mapRes (remapRows table) l with
          | .error e => .error e
          | .ok l =>
            match mapRes orderRows l with
            | .error e => .error e
            | .ok l => .ok (collect ents fd l, fastForward "Elements".toList s)
    | _ => .error .valueError

/-- One periodic link, /repo/src/meshio/gmsh/_gmsh41.py:279-290.  A file that ends within the numbers is left out. -/
def readLink (io : GmshFloat F) (ascii : Bool) (k : Nat) (s : List Char) : Res (Periodic F × List Char) :=
  match ints ascii 3 s with
  | ([dim, slave, master], s) =>
    match sizes ascii k 1 s with
    | (na :: _, s) =>
      match doubles io ascii na s with
      | (affine, s) =>
        match sizes ascii k 1 s with
        | (n :: _, s) =>
          match sizes ascii k (n * 2) s with
          | (xs, s) =>
            if xs.length ≠ n * 2 then .error .unmodelled
            else .ok (⟨dim, slave, master, some affine,
              (rowsN 2 n xs).map fun r => ((r.getD 0 0 : Int) - 1, (r.getD 1 0 : Int) - 1)⟩, s)
        | ([], _) => .error .indexError
    | ([], _) => .error .indexError
  | _ => .error .valueError

/-- The loop over the links. -/
def readLinks (io : GmshFloat F) (ascii : Bool) (k : Nat) : Nat → List Char → Res (List (Periodic F) × List Char)
  | 0, s => .ok ([], s)
  | n + 1, s =>
    match readLink io ascii k s with
    | .error e => .error e
    | .ok (p, s) =>
      match readLinks io ascii k n s with
      | .error e => .error e
      | .ok (l, s) => .ok (p :: l, s)

/-- `_read_periodic`, /repo/src/meshio/gmsh/_gmsh41.py:273-293. -/
def readPeriodic (io : GmshFloat F) (ascii : Bool) (dataSize : Int) (s : List Char) : Res (List (Periodic F) × List Char) :=
  match sizeType dataSize with
  | .error e => .error e
  | .ok k =>
    match sizes ascii k 1 s with
    | (n :: _, s) =>
      match readLinks io ascii k n s with
      | .error e => .error e
      | .ok (l, s) => .ok (l, fastForward "Periodic".toList s)
    | ([], _) => .error .indexError

/-- What is collected while the sections are read. -/
structure St (F : Type) where
  nodes : Option (Nodes F) := none
  ents : Option (List Entity) := none
  cells : Option Cells := none
  fieldData : Dict (Int × Int) := []
  pointData : Dict (NArr (List F)) := []
  cellDataRaw : Dict (NArr (List F)) := []
  periodic : Option (List (Periodic F)) := none
deriving DecidableEq

/-- One section, /repo/src/meshio/gmsh/_gmsh41.py:61-94. -/
def readSection (io : GmshFloat F) (ascii : Bool) (dataSize : Int) (st : St F) (environ : List Char) (s : List Char) :
    Res (St F × List Char) :=
  if environ = "PhysicalNames".toList then
    match readNames st.fieldData s with
    | .error e => .error e
    | .ok (fd, s) => .ok ({ st with fieldData := fd }, s)
  else if environ = "Entities".toList then
    match readEntities io ascii dataSize s with
    | .error e => .error e
    | .ok (l, s) => .ok ({ st with ents := some l }, s)
  else if environ = "Nodes".toList then
    match readNodes io ascii dataSize s with
    | .error e => .error e
    | .ok (n, s) => .ok ({ st with nodes := some n }, s)
  else if environ = "Elements".toList then
    match st.nodes with
    | none => .error .unboundLocal
    | some n =>
      match readElements ascii dataSize n.tags st.ents st.fieldData s with
      | .error e => .error e
      | .ok (c, s) => .ok ({ st with cells := some c }, s)
  else if environ = "Periodic".toList then
    match readPeriodic io ascii dataSize s with
    | .error e => .error e
    | .ok (l, s) => .ok ({ st with periodic := some l }, s)
  else if environ = "NodeData".toList then
    match readData io ascii "NodeData".toList st.pointData s with
    | .error e => .error e
    | .ok (d, s) => .ok ({ st with pointData := d }, s)
  else if environ = "ElementData".toList then
    match readData io ascii "ElementData".toList st.cellDataRaw s with
    | .error e => .error e
    | .ok (d, s) => .ok ({ st with cellDataRaw := d }, s)
  else .ok (st, fastForward environ s)

/-- The loop over the sections, /repo/src/meshio/gmsh/_gmsh41.py:50-94. -/
def readLoop (io : GmshFloat F) (ascii : Bool) (dataSize : Int) : Nat → St F → List Char → Res (St F)
  | 0, st, _ => .ok st
  | n + 1, st, s =>
    match nextLine s with
    | none => .ok st
    | some (line, s) =>
      if line.head? ≠ some '$' then .error .readError
      else
        match readSection io ascii dataSize st (strip (line.drop 1)) s with
        | .error e => .error e
        | .ok (st, s) => readLoop io ascii dataSize n st s

/-- The mesh that is read: `dimTags` is the point data `gmsh:dim_tags`, `physical` and `geometrical` the cell data
`gmsh:physical` and `gmsh:geometrical` (absent if empty), `bounding` the cell sets `gmsh:bounding_entities`. -/
structure Out (F : Type) where
  points : List (List F)
  cells : List (String × List (List Int))
  pointData : Dict (NArr (List F))
  dimTags : List (Int × Int)
  cellData : Dict (List Nat × List (List (List F)))
  physical : List (List Int)
  geometrical : List (List Int)
  fieldData : Dict (Int × Int)
  sets : Dict (List (List Nat))
  bounding : Option (List (Option (List Int)))
  periodic : Option (List (Periodic F))
deriving DecidableEq

/-- The end of `read_buffer`, /repo/src/meshio/gmsh/_gmsh41.py:96-112, with the checks of the `Mesh` constructor.  Data with
one of the reserved names is left out, as is a physical name `gmsh:bounding_entities`. -/
def finish (st : St F) : Res (Out F) :=
  match st.cells with
  | none => .error .readError
  | some c =>
    let lens := c.cells.map fun b => b.2.length
    let cd := st.cellDataRaw.map fun kv => (kv.1, kv.2.tail, cellDataFromRaw lens kv.2.rows)
    match st.nodes with
    | none => .error .unboundLocal
    | some n =>
      if (Dict.get? st.pointData "gmsh:dim_tags").isSome ∨ (Dict.get? st.cellDataRaw "gmsh:physical").isSome ∨
          (Dict.get? st.cellDataRaw "gmsh:geometrical").isSome ∨ (Dict.get? c.sets "gmsh:bounding_entities").isSome then
        .error .unmodelled
      else if st.pointData.any (fun kv => decide (kv.2.rows.length ≠ n.points.length)) then .error .valueError
      else if n.dimTags.length ≠ n.points.length then .error .valueError
      else if cd.any (fun kv => decide (kv.2.2.map List.length ≠ lens)) then .error .valueError
      else if c.physical ≠ [] ∧ c.physical.map List.length ≠ lens then .error .valueError
      else if c.geometrical ≠ [] ∧ c.geometrical.map List.length ≠ lens then .error .valueError
      else .ok ⟨n.points, c.cells, st.pointData, n.dimTags, cd, c.physical, c.geometrical, st.fieldData, c.sets, c.bounding, st.periodic⟩

/-- `read_buffer`, /repo/src/meshio/gmsh/_gmsh41.py:35-112. -/
def readBuffer (io : GmshFloat F) (ascii : Bool) (dataSize : Int) (s : List Char) : Res (Out F) :=
  match readLoop io ascii dataSize (s.length + 1) {} s with
  | .error e => .error e
  | .ok st => finish st

/-- `meshio.gmsh.read` of a file of version 4.1. -/
def read (io : GmshFloat F) (s : List Char) : Res (Out F) :=
  match start s with
  | .error e => .error e
  | .ok ((.v41, d, ascii), s) => readBuffer io ascii d s
  | .ok (_, _) => .error .unmodelled

/-! ## Writing -/

/-- The mesh that is written.  `dimTags` is the point data `gmsh:dim_tags`, `physical` and `geometrical` the cell data of
these names, `bounding` the cell sets `gmsh:bounding_entities`.  Cell data `cell_tags` and other cell sets are not written. -/
structure In (F : Type) where
  dim : Nat
  points : List (List F)
  cells : List (String × List (List Int))
  pointData : Dict (NArr (List F))
  dimTags : Option (List (Int × Int))
  physical : Option (List (List Int))
  geometrical : Option (List (List Int))
  cellData : Dict (List (NArr (List F)))
  fieldData : Dict (List Int)
  bounding : Option (List (Option (List Int)))
  periodic : Option (List (Periodic F))

/-- Numbers of type `c_size_t`. -/
def putSize (n : Nat) : List Char := toChars (natEnc false 8 n)

def pairLt (a b : Int × Int) : Bool := decide (a.1 < b.1 ∨ (a.1 = b.1 ∧ a.2 < b.2))

/-- Insertion into a sorted list without repetition. -/
def pinsert (x : Int × Int) : List (Int × Int) → List (Int × Int)
  | [] => [x]
  | y :: l => if pairLt x y then x :: y :: l else if x = y then y :: l else y :: pinsert x l

/-- `np.unique(a, axis=0)` for pairs: the rows that occur, sorted. -/
def pairUnique (l : List (Int × Int)) : List (Int × Int) := l.foldr pinsert []

/-- The dimension of a cell block, /repo/src/meshio/_mesh.py:85-101. -/
def dimOf (t : String) : Nat := if startsWith "polyhedron" t then 3 else (Dict.get? topologicalDimension t).getD 0

/-- `tag_data[...][ci][0]`, if the array exists. -/
def firstTag (tags : Option (List (List Int))) (ci : Nat) : Res Int :=
  match tags with
  | none => .error .keyError
  | some l =>
    match l[ci]? with
    | none => .error .indexError
    | some b =>
      match b with
      | [] => .error .indexError
      | t :: _ => .ok t

/-- Dimension and tag of each block, /repo/src/meshio/gmsh/_gmsh41.py:416-421. -/
def cellDimTags (m : In F) : Res (List (Int × Int)) :=
  mapRes (fun bi : (String × List (List Int)) × Nat =>
    match firstTag m.geometrical bi.2 with
    | .error e => .error e
    | .ok t => .ok ((dimOf bi.1.1 : Int), t)) m.cells.zipIdx

/-- The boundary that is written for an entity of positive dimension, /repo/src/meshio/gmsh/_gmsh41.py:486-514. -/
def boundsOf (m : In F) (k : Option Nat) : Res (List Int) :=
  match m.bounding, k with
  | some l, some k =>
    match l[k]? with
    | none => .error .indexError
    | some none => .error .typeError
    | some (some b) => .ok b
  | _, _ => .ok []

/-- The text of one entity, /repo/src/meshio/gmsh/_gmsh41.py:444-518. -/
def entityText (io : GmshFloat F) (binary : Bool) (dim tag : Int) (phys : Option Int) (bounds : List Int) : List Char :=
  (if binary then putInt 4 tag else fmtInt tag ++ [' ']) ++
  (if dim = 0 then (if binary then (List.replicate 3 io.zero).flatMap (putF io) else "0 0 0 ".toList)
    else if binary then (List.replicate 6 io.zero).flatMap (putF io) else "0 0 0 0 0 0 ".toList) ++
  (match phys with
    | some p => if binary then putSize 1 ++ putInt 4 p else "1 ".toList ++ fmtInt p ++ [' ']
    | none => if binary then putSize 0 else "0 ".toList) ++
  (if 0 < dim then
    if bounds = [] then (if binary then putSize 0 else "0\n".toList)
    else if binary then putSize bounds.length ++ putInts 4 bounds
    else fmtNat bounds.length ++ [' '] ++ bounds.flatMap (fun b => fmtInt b ++ [' ']) ++ ['\n']
  else if binary then [] else ['\n'])

/-- The positions of the blocks that belong to an entity, /repo/src/meshio/gmsh/_gmsh41.py:431-433. -/
def matching (cdt : List (Int × Int)) (e : Int × Int) : List Nat := (cdt.zipIdx.filter fun x => decide (x.1 = e)).map (·.2)

/-- One entity, /repo/src/meshio/gmsh/_gmsh41.py:429-518. -/
def writeEntity (io : GmshFloat F) (binary : Bool) (m : In F) (cdt : List (Int × Int)) (e : Int × Int) : Res (List Char) :=
  if 1 < (matching cdt e).length then .error .valueError
  else
    match (matching cdt e).head? with
    | some k =>
      match firstTag m.physical k with
      | .error e => .error e
      | .ok p =>
        if 0 < e.1 then
          match boundsOf m (some k) with
          | .error e => .error e
          | .ok b => .ok (entityText io binary e.1 e.2 (some p) b)
        else .ok (entityText io binary e.1 e.2 (some p) [])
    | none => .ok (entityText io binary e.1 e.2 none [])

/-- `_write_entities`, /repo/src/meshio/gmsh/_gmsh41.py:344-523. -/
def writeEntities (io : GmshFloat F) (binary : Bool) (m : In F) : Res (List Char) :=
  match m.dimTags with
  | none => .ok []
  | some dt =>
    let ents := pairUnique dt
    if ents.any (fun e => decide (e.1 < 0 ∨ 3 < e.1)) then .error .valueError
    else
      let num := (List.range 4).map fun (d : Nat) => (ents.filter fun e => decide (e.1 = (d : Int))).length
      match cellDimTags m with
      | .error e => .error e
      | .ok cdt =>
        match mapRes (writeEntity io binary m cdt) ents with
        | .error e => .error e
        | .ok l =>
          .ok (linesText ["$Entities".toList] ++
            (if binary then num.flatMap putSize else linesText [joinWith ' ' (num.map fmtNat)]) ++ l.flatten ++
            (if binary then ['\n'] else []) ++ linesText ["$EndEntities".toList])

/-- One block of nodes, /repo/src/meshio/gmsh/_gmsh41.py:606-621. -/
def nodeBlock (io : GmshFloat F) (binary : Bool) (e : Int × Int) (nodes : List (Nat × List F)) : List Char :=
  if binary then
    putInts 4 [e.1, e.2, 0] ++ putSize nodes.length ++ nodes.flatMap (fun p => putSize (p.1 + 1)) ++
      nodes.flatMap fun p => p.2.flatMap (putF io)
  else
    linesText [joinWith ' ' [fmtInt e.1, fmtInt e.2, fmtInt 0, fmtNat nodes.length]] ++
      (joinWith '\n' (nodes.map fun p => fmtNat (p.1 + 1)) ++ ['\n']) ++
      linesText (nodes.map fun p => joinWith ' ' (p.2.map io.fmt))

/-- The entities that have nodes, and the entity of each node, /repo/src/meshio/gmsh/_gmsh41.py:569-591. -/
def nodeEntities (m : In F) (n : Nat) : Res (List (Int × Int) × List (Int × Int)) :=
  match m.dimTags with
  | some dt => .ok (pairUnique dt, dt)
  | none =>
    match m.cells with
    | [b] => .ok ([((dimOf b.1 : Int), 0)], List.replicate n ((dimOf b.1 : Int), 0))
    | _ => .error .writeError

/-- `_write_nodes`, /repo/src/meshio/gmsh/_gmsh41.py:526-626. -/
def writeNodes (io : GmshFloat F) (binary : Bool) (m : In F) : Res (List Char) :=
  let pts := if m.dim = 2 then m.points.map (· ++ [io.zero]) else m.points
  match nodeEntities m pts.length with
  | .error e => .error e
  | .ok (ents, dt) =>
    let blocks := ents.map fun e => (e, (((dt.zip pts).zipIdx.filter fun x => decide (x.1.1 = e)).map fun x => (x.2, x.1.2)))
    .ok (linesText ["$Nodes".toList] ++
      (if binary then [ents.length, pts.length, 1, pts.length].flatMap putSize
        else linesText [joinWith ' ' ([ents.length, pts.length, 1, pts.length].map fmtNat)]) ++
      blocks.flatMap (fun b => nodeBlock io binary b.1 b.2) ++
      (if binary then ['\n'] else []) ++ linesText ["$EndNodes".toList])

/-- One block of elements, /repo/src/meshio/gmsh/_gmsh41.py:654-688, 699-720. -/
def elemBlock (binary : Bool) (start : Nat) (t : String) (tag : Int) (code : Nat) (rows : List (List Int)) : List Char :=
  if binary then
    putInts 4 [(dimOf t : Int), tag, (code : Int)] ++ putSize rows.length ++
      rows.zipIdx.flatMap fun r => putSize (start + r.2) ++ r.1.flatMap fun z => putSize (z + 1).toNat
  else
    linesText [joinWith ' ' [fmtNat (dimOf t), fmtInt tag, fmtNat code, fmtNat rows.length]] ++
      linesText (rows.zipIdx.map fun r => joinWith ' ' (fmtNat (start + r.2) :: r.1.map fun z => fmtInt (z + 1)))

/-- The loop over the blocks; `ci` is the number of the block, `start` that of its first element. -/
def writeElemBlocks (binary : Bool) (geo : Option (List (List Int))) :
    Nat → Nat → List (String × List (List Int)) → Res (List Char)
  | _, _, [] => .ok []
  | ci, start, (t, rows) :: cells =>
    match mapRes (reorder gmshGmshOrdering t) rows with
    | .error e => .error e
    | .ok nodes =>
      match (match geo with
        | none => Except.ok 0
        | some l => firstTag (some l) ci : Res Int) with
      | .error e => .error e
      | .ok tag =>
        match find meshioToGmsh t with
        | none => .error .keyError
        | some code =>
          match writeElemBlocks binary geo (ci + 1) (start + rows.length) cells with
          | .error e => .error e
          | .ok s => .ok (elemBlock binary start t tag code nodes ++ s)

/-- `_write_elements`, /repo/src/meshio/gmsh/_gmsh41.py:629-722. -/
def writeElements (binary : Bool) (m : In F) : Res (List Char) :=
  let total := (m.cells.map fun c => c.2.length).sum
  match writeElemBlocks binary m.geometrical 0 1 m.cells with
  | .error e => .error e
  | .ok b =>
    .ok (linesText ["$Elements".toList] ++
      (if binary then [m.cells.length, total, 1, total].flatMap putSize
        else linesText [joinWith ' ' ([m.cells.length, total, 1, total].map fmtNat)]) ++ b ++
      (if binary then ['\n'] else []) ++ linesText ["$EndElements".toList])

/-- One link, /repo/src/meshio/gmsh/_gmsh41.py:754-765.  Negative positions are left out. -/
def linkText (io : GmshFloat F) (binary : Bool) (p : Periodic F) : List Char :=
  let aff := p.affine.getD []
  if binary then
    putInts 4 [p.dim, p.slave, p.master] ++ putSize aff.length ++ aff.flatMap (putF io) ++ putSize p.pairs.length ++
      p.pairs.flatMap fun q => putSize (q.1 + 1).toNat ++ putSize (q.2 + 1).toNat
  else
    linesText [joinWith ' ' [fmtInt p.dim, fmtInt p.slave, fmtInt p.master]] ++
      (if aff = [] then "0\n".toList else fmtNat aff.length ++ [' '] ++ joinWith ' ' (aff.map io.fmt) ++ ['\n']) ++
      linesText (fmtNat p.pairs.length :: p.pairs.map fun q => joinWith ' ' [fmtInt (q.1 + 1), fmtInt (q.2 + 1)])

/-- `_write_periodic`, /repo/src/meshio/gmsh/_gmsh41.py:725-768. -/
def writePeriodic (io : GmshFloat F) (binary : Bool) (l : List (Periodic F)) : List Char :=
  linesText ["$Periodic".toList] ++ (if binary then putSize l.length else linesText [fmtNat l.length]) ++
    l.flatMap (linkText io binary) ++ (if binary then ['\n'] else []) ++ linesText ["$EndPeriodic".toList]

/-- The header, /repo/src/meshio/gmsh/_gmsh41.py:317-324. -/
def headerText (binary : Bool) : List Char :=
  linesText ["$MeshFormat".toList, (if binary then "4.1 1 8".toList else "4.1 0 8".toList)] ++
    (if binary then putInt 4 1 ++ ['\n'] else []) ++ linesText ["$EndMeshFormat".toList]

/-- `write`, /repo/src/meshio/gmsh/_gmsh41.py:296-341. -/
def write (io : GmshFloat F) (binary : Bool) (m : In F) : Res (List Char) :=
  match writeEntities io binary m with
  | .error e => .error e
  | .ok ents =>
    match writeNodes io binary m with
    | .error e => .error e
    | .ok nodes =>
      match writeElements binary m with
      | .error e => .error e
      | .ok elems =>
        match writeDatas io binary "NodeData".toList m.pointData with
        | .error e => .error e
        | .ok pd =>
          match rawData m.cellData with
          | .error e => .error e
          | .ok raw =>
            match writeDatas io binary "ElementData".toList raw with
            | .error e => .error e
            | .ok cd =>
              .ok (headerText binary ++ writeNames m.fieldData ++ ents ++ nodes ++ elems ++
                (match m.periodic with
                  | some l => writePeriodic io binary l
                  | none => []) ++ pd ++ cd)

end Gmsh41
end Meshio
