/-
Model of the cell handling in /repo/src/meshio/vtu/_vtu.py: pieces, the cell arrays of the
writer, and polyhedra.
-/
import Verif.Base.Num
import Verif.Model.VtkLegacy
namespace Meshio.Vtu
open Meshio Meshio.Tables Meshio.Types Meshio.Vtk

variable {R : Type}

/-- A polyhedral cell: its faces, each a list of nodes. -/
abbrev PolyCell := List (List Int)

/-- The face loop, /repo/src/meshio/vtu/_vtu.py:65-76.  `m` faces from position `nx` on.
Simplification: a negative node count is treated as zero (numpy would slice from the end). -/
def readFaces (faces : List Int) : Nat → Nat → Res (List (List Int))
  | 0, _ => .ok []
  | m + 1, nx =>
    match faces[nx]? with
    | none => .error .indexError
    | some n =>
      match readFaces faces m (nx + n.toNat + 1) with
      | .error e => .error e
      | .ok fs => .ok (pySlice faces (nx + 1) (nx + n.toNat + 1) :: fs)

/-- One cell, /repo/src/meshio/vtu/_vtu.py:60-80: its key and its faces.  A cell without
faces makes `np.hstack` fail (ValueError). -/
def polyCellAt (faces : List Int) (start : Nat) : Res (String × PolyCell) :=
  match faces[start]? with
  | none => .error .indexError
  | some nf =>
    match readFaces faces nf.toNat (start + 1) with
    | .error e => .error e
    | .ok [] => .error .valueError
    | .ok (f :: fs) =>
      .ok ("polyhedron" ++ strInt (npUnique (f :: fs).flatten).length, f :: fs)

/-- `d[items]` with `items = np.where(size == sz)[0]`, /repo/src/meshio/vtu/_vtu.py:97-103. -/
def dataOfSize (sizes : List Int) (sz : Int) (d : List R) : Res (List R) :=
  if ∀ p ∈ sizes.zipIdx, p.1 = sz → p.2 < d.length then
    .ok ((sizes.zip d).filterMap (fun p => if p.1 = sz then some p.2 else none))
  else .error .indexError

/-- `_polyhedron_cells_from_data`, /repo/src/meshio/vtu/_vtu.py:34-103. -/
def polyhedronCells (offsets : List Int) (faces : List Int) (faceoffsets : List Nat)
    (raw : Dict (List R)) : Res (Dict (List PolyCell) × Dict (List (List R))) :=
  match mapRes (polyCellAt faces) (0 :: faceoffsets.dropLast) with
  | .error e => .error e
  | .ok cells =>
    let sizes := npDiff (0 :: offsets)
    match foldRes (fun cd sz => addData (dataOfSize sizes sz) cd raw) [] (npUnique sizes) with
    | .error e => .error e
    | .ok cd => .ok (groupTypes cells, cd)

/-- The cell arrays of one piece (`piece_cells`); `faces` and `faceoffsets` are only there
for polyhedra. -/
structure CellArrays where
  connectivity : List Int
  offsets : List Int
  types : List Nat
  faces : Option (List Int)
  faceoffsets : Option (List Nat)

/-- Cell blocks as read from a VTU file: ordinary rows or polyhedra. -/
inductive VtuBlock where
  | rows (type : String) (data : List (List Int))
  | poly (type : String) (data : List PolyCell)
deriving DecidableEq, Repr

/-- The loop over the pieces, /repo/src/meshio/vtu/_vtu.py:145-151: `cls`, `cell_data` and
`offset` keep the values of the last round. -/
def lastPiece : List (Int × CellArrays × Dict (List R)) → Option (Int × St R) → Res (Option (Int × St R))
  | [], st => .ok st
  | (o, c, raw) :: l, _ =>
    match vtkCellsFromData c.connectivity c.offsets c.types raw with
    | .error e => .error e
    | .ok r => lastPiece l (some (o, r))

/-- `_organize_cells`, /repo/src/meshio/vtu/_vtu.py:106-158. -/
def organizeCells (pointOffsets : List Int) (cells : List CellArrays) (raws : List (Dict (List R))) :
    Res (List VtuBlock × Dict (List (List R))) :=
  if pointOffsets.length ≠ cells.length then .error .readError
  else if cells.any (fun c => decide (42 ∈ c.types)) then
    match cells, raws with
    | [c], raw :: _ =>
      if c.types.any (fun t => decide (t ≠ 42)) then .error .valueError
      else
        match c.faces, c.faceoffsets with
        | some f, some fo =>
          match polyhedronCells c.offsets f fo raw with
          | .error e => .error e
          | .ok (cls, cd) => .ok (cls.map (fun kv => .poly kv.1 kv.2), cd)
        | _, _ => .error .keyError
    | [_], [] => .error .indexError
    | _, _ => .error .valueError
  else
    match lastPiece (pointOffsets.zip (cells.zip raws)) none with
    | .error e => .error e
    | .ok none => .error .unboundLocal
    | .ok (some (o, (bs, cd))) =>
      .ok (bs.map (fun b => .rows b.1 (b.2.map (fun r => r.map (· + o)))), cd)

/-- A `Piece` element as the reader sees it, after the arrays have been decoded. -/
structure PieceIn (P R : Type) where
  numCells : Nat
  points : Option (List P)
  cells : Option CellArrays
  pointData : Option (Dict (List R))
  cellData : Option (Dict (List R))

/-- `np.cumsum([0] + [pts.shape[0] for pts in points][:-1])`. -/
def pointOffsets {P : Type} (acc : Nat) : List (List P) → List Int
  | [] => [(acc : Int)]
  | [_] => [(acc : Int)]
  | p :: q :: l => (acc : Int) :: pointOffsets (acc + p.length) (q :: l)

/-- `np.concatenate([pd[key] for pd in point_data])`; KeyError if a piece lacks the key. -/
def joinKey (key : String) : List (Dict (List R)) → Res (List R)
  | [] => .ok []
  | d :: l =>
    match d.get? key with
    | none => .error .keyError
    | some a =>
      match joinKey key l with
      | .error e => .error e
      | .ok b => .ok (a ++ b)

/-- The check of the numbers of offsets and types, /repo/src/meshio/vtu/_vtu.py:385-388. -/
def badCounts {P : Type} (p : PieceIn P R) : Bool :=
  match p.cells with
  | none => false
  | some c => decide (c.offsets.length ≠ p.numCells ∨ c.types.length ≠ p.numCells)

/-- One entry of the merged point data. -/
def joinEntry (pds : List (Dict (List R))) (k : String) : Res (String × List R) :=
  match joinKey k pds with
  | .error e => .error e
  | .ok a => .ok (k, a)

/-- The merged point data, /repo/src/meshio/vtu/_vtu.py:432-438. -/
def joinPointData (pds : List (Dict (List R))) : Res (Option (Dict (List R))) :=
  match pds with
  | [] => .ok none
  | d :: l =>
    match mapRes (joinEntry (d :: l)) d.keys with
    | .error e => .error e
    | .ok pd => .ok (some pd)

/-- The merging part of `VtuReader.__init__`, /repo/src/meshio/vtu/_vtu.py:351-445: points,
point data, cells and cell data.  Field data and XML handling are left out. -/
def readPieces {P : Type} (pieces : List (PieceIn P R)) :
    Res (List P × Option (Dict (List R)) × List VtuBlock × Dict (List (List R))) :=
  if pieces = [] then .error .readError
  else if pieces.any badCounts then .error .readError
  else
    let points := pieces.filterMap (·.points)
    let cells := pieces.filterMap (·.cells)
    let raws0 := pieces.filterMap (·.cellData)
    let raws := if raws0 = [] then List.replicate cells.length [] else raws0
    if raws.length ≠ cells.length then .error .readError
    else if points = [] then .error .readError
    else
      match joinPointData (pieces.filterMap (·.pointData)) with
      | .error e => .error e
      | .ok pd =>
        match organizeCells (pointOffsets 0 points) cells raws with
        | .error e => .error e
        | .ok (cs, cd) => .ok (points.flatten, pd, cs, cd)

/-! ### Writer -/

/-- `offsets[k - 1][-1]`, or nothing to add for the first block. -/
def baseOf : Option (List Int) → Res Int
  | none => .ok 0
  | some p =>
    match p.getLast? with
    | none => .error .indexError
    | some z => .ok z

/-- The offsets of the writer for blocks of rows, /repo/src/meshio/vtu/_vtu.py:847-853:
each block's own offsets, then `offsets[k] += offsets[k - 1][-1]` (IndexError if the block
before is empty). -/
def offsetsOutVtu : Option (List Int) → List Blk2 → Res (List Int)
  | _, [] => .ok []
  | prev, b :: bs =>
    match baseOf prev with
    | .error e => .error e
    | .ok base =>
      let offs := (List.range b.rows.length).map (fun (i : Nat) => (b.width : Int) * ((i : Int) + 1) + base)
      match offsetsOutVtu (some offs) bs with
      | .error e => .error e
      | .ok rest => .ok (offs ++ rest)

/-- The arrays written for ordinary blocks, /repo/src/meshio/vtu/_vtu.py:832-884. -/
def writeRowsVtu (bs : List Blk2) : Res CellArrays :=
  match mapRes (fun b : Blk2 => mapRes (outRow b.type) b.rows) bs with
  | .error e => .error e
  | .ok conn =>
    match offsetsOutVtu none bs with
    | .error e => .error e
    | .ok offs =>
      match mapRes (fun b : Blk2 => typesOut (b.type, b.rows)) bs with
      | .error e => .error e
      | .ok types => .ok ⟨conn.flatten.flatten, offs, types.flatten, none, none⟩

/-- `_polyhedron_face_cells`, /repo/src/meshio/vtu/_vtu.py:763-789: the data list so far and
the list of its lengths after each cell. -/
def faceCells : List Int → List PolyCell → List Int × List Nat
  | data, [] => (data, [])
  | data, c :: cs =>
    let data' := data ++ ((c.length : Int) :: c.flatMap (fun f => (f.length : Int) :: f))
    let r := faceCells data' cs
    (r.1, data'.length :: r.2)

/-- `[fi + faceoffsets[-1] for fi in faceoffsets_loc]` once there are offsets,
/repo/src/meshio/vtu/_vtu.py:867-869. -/
def shiftOffs (prev loc : List Nat) : List Nat :=
  match prev.getLast? with
  | none => loc
  | some z => loc.map (· + z)

/-- The `faces` and `faceoffsets` of all blocks, /repo/src/meshio/vtu/_vtu.py:857-874. -/
def facesOut : List Int × List Nat → List (List PolyCell) → List Int × List Nat
  | st, [] => st
  | st, b :: bs =>
    let loc := faceCells [] b
    facesOut (st.1 ++ loc.1, st.2 ++ shiftOffs st.2 loc.2) bs

/-- `np.cumsum` -/
def cumsum : Int → List Int → List Int
  | _, [] => []
  | acc, n :: ns => (acc + n) :: cumsum (acc + n) ns

/-- The arrays written for polyhedra, /repo/src/meshio/vtu/_vtu.py:805-830 and 857-884. -/
def writePolyVtu (bs : List (List PolyCell)) : CellArrays :=
  let nodes := bs.flatten.map (fun c => npUnique c.flatten)
  let f := facesOut ([], []) bs
  ⟨nodes.flatten, cumsum 0 (nodes.map (fun l => (l.length : Int))),
    List.replicate bs.flatten.length 42, some f.1, some f.2⟩

end Meshio.Vtu
